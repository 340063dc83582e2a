/-
Properties of the Nelder-Mead search: C09, C24, C25, C26, C27, C28, C55.
The theorems quantify over every behaviour of the objective (the answers in `evs` are arbitrary) and of the stopping
criteria (`StopLaws` only asks that "converged" stays "converged" until it is reset).
-/
import Mathlib.LinearAlgebra.AffineSpace.AffineSubspace.Basic
import Mathlib.Data.Rat.Defs
import Mathlib.Algebra.Order.Ring.Rat
import Verif.Lemmas.NelderMead
import Verif.Lemmas.NmStop
import Verif.Lemmas.Play
import Verif.Props.Run

set_option linter.unusedSectionVars false

namespace QuOCS

variable {K F : Type} {n : ℕ} [Field K] [LinearOrder K] [Field F] [LinearOrder F] [IsStrictOrderedRing F]
variable {c : NmCfg K F n} {sim0 : Fin (n + 1) → Vec K n} {fuel : ℕ} {m : ℤ} {evs : List (Ev K (Vec K n) F)}

/-- all that is known about the calls and the result of a search -/
theorem nm_plays {m' : Strat K (Vec K n) F (DsmResult (Vec K n) F)} (ha : IsArgsort c.argsort)
    (hp : Plays (nmRun c fuel sim0) evs m') (hl : StopLaws m evs) :
    (∀ pre o r post, evs = pre ++ ⟨o, r⟩ :: post → NM.G c sim0 pre o) ∧
      m'.wp (NM.G c sim0) (NM.A m) (NM.RunPost c m) evs := by
  have := hp.of_wp (A := NM.A m) (h := []) (fun pre post he => by
    rw [he] at hl; exact hl.prefix) (NM.run_wp (sim0 := sim0) ha fuel)
  simpa using this

/-! ### Concrete searches used by the examples -/

/-- insertion sort of the rows, stable -/
def exArgsort1 (f : Fin 2 → ℚ) : Equiv.Perm (Fin 2) := if f 1 < f 0 then Equiv.swap 0 1 else 1

/-- sorts, but exchanges equal rows -/
def exArgsort2 (f : Fin 2 → ℚ) : Equiv.Perm (Fin 2) := if f 1 ≤ f 0 then Equiv.swap 0 1 else 1

theorem exArgsort1_sorts : IsArgsort exArgsort1 := by
  intro f
  refine Fin.monotone_iff_le_succ.2 fun i => ?_
  have hi : i = 0 := Subsingleton.elim _ _
  subst hi
  unfold exArgsort1
  split
  · rename_i h
    simpa using h.le
  · rename_i h
    simpa using h

theorem exArgsort1_keeps : KeepsLeader exArgsort1 := by
  intro f hf
  unfold exArgsort1
  rw [if_neg (not_lt.2 (hf 1))]
  rfl

theorem exArgsort2_sorts : IsArgsort exArgsort2 := by
  intro f
  refine Fin.monotone_iff_le_succ.2 fun i => ?_
  have hi : i = 0 := Subsingleton.elim _ _
  subst hi
  unfold exArgsort2
  split
  · rename_i h
    simpa using h
  · rename_i h
    simpa using (not_le.1 h).le

/-- one-dimensional search -/
def exNm (a : (Fin 2 → ℚ) → Equiv.Perm (Fin 2)) : NmCfg ℚ ℚ 1 :=
  { adaptive := false, driftMinutes := 0, driftAverage := 1, argsort := a }

/-- start simplex `{0, 1}` -/
def exSim : Fin 2 → Vec ℚ 1 := fun i _ => (i : ℕ)

/-- values 5, 3 at the start; reflection to 2 has value 2, expansion to 3 has value 1; then converged -/
def exScript : List (ℚ ⊕ Bool) :=
  [.inl 5, .inl 3, .inr false, .inl 2, .inr false, .inl 1, .inr true, .inr true]

/-- values 5, 3 at the start; reflection has value 2, and the search is stopped before the expansion -/
def exScriptStop : List (ℚ ⊕ Bool) := [.inl 5, .inl 3, .inr false, .inl 2, .inr true]

/-- equal values at the start and the reflected point, contraction does not help; the search is stopped in the middle of shrinking -/
def exScriptTie : List (ℚ ⊕ Bool) :=
  [.inl 5, .inl 5, .inr false, .inl 5, .inr false, .inl 7, .inr true, .inr true, .inr true]

/-- evaluations and result on a script -/
def exResult (a : (Fin 2 → ℚ) → Equiv.Perm (Fin 2)) (l : List (ℚ ⊕ Bool)) : Option (List (ℚ × ℚ) × ℚ × ℚ × ℕ) :=
  ((nmRun (exNm a) 5 exSim).play l).map fun q =>
    ((evals q.1).map (fun p => (p.1 0, p.2)), q.2.xOpt 0, q.2.fMin, q.2.nfev)

/-- A complete search: evaluations at 0, 1, 2, 3, the result is the last one. -/
example : exResult exArgsort1 exScript = some ([(0, 5), (1, 3), (2, 2), (3, 1)], 3, 1, 4) := by decide +kernel

/-! ### C24: the best point is not lost -/

/-- **C24.** After every iteration (when the stopping criteria are checked) the first of the values kept in the simplex
is the smallest of all values obtained so far; without drift compensation. -/
theorem C24_kept_value_is_minimum {m' : Strat K (Vec K n) F (DsmResult (Vec K n) F)} (ha : IsArgsort c.argsort)
    (hd : c.driftMinutes ≤ 0) (hp : Plays (nmRun c fuel sim0) evs m') (hl : StopLaws m evs)
    {pre post : List (Ev K (Vec K n) F)} {size : Py K} {fs : List F} {calls : ℕ} {u : Unit}
    (he : evs = pre ++ ⟨.checkNM size fs calls, u⟩ :: post) :
    ∃ y, fs.head? = some y ∧ (∃ x, (x, y) ∈ evals pre) ∧ ∀ p ∈ evals pre, y ≤ p.2 := by
  obtain ⟨-, f, hf, -, hv⟩ := (nm_plays ha hp hl).1 _ _ _ _ he
  exact ⟨f 0, by rw [hf, List.ofFn_succ]; rfl, (hv hd).1, (hv hd).2⟩

/-- **C24.** From one iteration to a later one the best value kept does not increase. -/
theorem C24_kept_value_never_increases {m' : Strat K (Vec K n) F (DsmResult (Vec K n) F)} (ha : IsArgsort c.argsort)
    (hd : c.driftMinutes ≤ 0) (hp : Plays (nmRun c fuel sim0) evs m') (hl : StopLaws m evs)
    {pre mid post : List (Ev K (Vec K n) F)} {size₁ size₂ : Py K} {fs₁ fs₂ : List F} {calls₁ calls₂ : ℕ} {u₁ u₂ : Unit}
    (he : evs = pre ++ ⟨.checkNM size₁ fs₁ calls₁, u₁⟩ :: (mid ++ ⟨.checkNM size₂ fs₂ calls₂, u₂⟩ :: post)) :
    ∃ y₁ y₂, fs₁.head? = some y₁ ∧ fs₂.head? = some y₂ ∧ y₂ ≤ y₁ := by
  obtain ⟨y₁, h1, ⟨x, hx⟩, -⟩ := C24_kept_value_is_minimum ha hd hp hl he
  obtain ⟨y₂, h2, -, h3⟩ := C24_kept_value_is_minimum (pre := pre ++ ⟨.checkNM size₁ fs₁ calls₁, u₁⟩ :: mid)
    (post := post) (size := size₂) (fs := fs₂) (calls := calls₂) (u := u₂) ha hd hp hl (by rw [he]; simp)
  refine ⟨y₁, y₂, h1, h2, h3 (x, y₁) ?_⟩
  rw [evals_append]
  exact List.mem_append_left _ hx

/-- **C24.** If no stop interrupted an iteration (the search never found itself stopped right after an evaluation made
in the loop), the returned minimum is the smallest of all values obtained by the search, and it was obtained. -/
theorem C24_result_is_minimum {r : DsmResult (Vec K n) F} (ha : IsArgsort c.argsort) (hd : c.driftMinutes ≤ 0)
    (hp : Plays (nmRun c fuel sim0) evs (.ret r)) (hl : StopLaws m evs) (hs : ¬ StoppedAfterEval (n + 1) evs) :
    (∃ x, (x, r.fMin) ∈ evals evs) ∧ ∀ p ∈ evals evs, r.fMin ≤ p.2 := by
  have h := (nm_plays ha hp hl).2
  exact ⟨h.value hd, h.all hd hs⟩

/-- **C24.** In any case only the value of the very last evaluation can be smaller than the returned minimum. -/
theorem C24_only_last_value_can_be_lost {r : DsmResult (Vec K n) F} (ha : IsArgsort c.argsort) (hd : c.driftMinutes ≤ 0)
    (hp : Plays (nmRun c fuel sim0) evs (.ret r)) (hl : StopLaws m evs) :
    (∃ x, (x, r.fMin) ∈ evals evs) ∧ ∀ p ∈ (evals evs).dropLast, r.fMin ≤ p.2 := by
  have h := (nm_plays ha hp hl).2
  exact ⟨h.value hd, h.most hd⟩

/-- Could the calls have been answered by stopping criteria with at most 1000 evaluations? -/
def lawfulB {V : Type} (evs : List (Ev ℚ V ℚ)) : Bool :=
  decide ((evs.filterMap (fun e => match e with | ⟨.readConv, b⟩ => some b | _ => none)).Pairwise
    (fun a b => a = true → b = true)) &&
  evs.all (fun e => match e with
    | ⟨.checkNM _ _ k, _⟩ => decide ((k : ℤ) < 1000) | ⟨.checkCMA _ k, _⟩ => decide ((k : ℤ) < 1000) | ⟨.userStop, _⟩ => false | _ => true)

theorem lawful_of {V : Type} {evs : List (Ev ℚ V ℚ)} (h : lawfulB evs = true) : StopLaws 1000 evs := by
  unfold lawfulB at h
  rw [Bool.and_eq_true, decide_eq_true_eq, List.all_eq_true] at h
  obtain ⟨hb, hc⟩ := h
  rintro pre ⟨o, t⟩ mid r post rfl ht -
  cases o with
  | readConv =>
    have ht : t = true := ht
    subst ht
    simp only [List.filterMap_append, List.filterMap_cons] at hb
    simp only [List.append_assoc] at hb
    have hb := (List.pairwise_append.1 hb).2.1
    rw [List.cons_append, List.pairwise_cons] at hb
    exact hb.1 r (by simp) rfl
  | checkNM size fs k =>
    have := hc ⟨.checkNM size fs k, t⟩ (by simp)
    have ht : (1000 : ℤ) ≤ k := ht
    simp only [decide_eq_true_eq] at this
    omega
  | checkCMA fs k =>
    have := hc ⟨.checkCMA fs k, t⟩ (by simp)
    have ht : (1000 : ℤ) ≤ k := ht
    simp only [decide_eq_true_eq] at this
    omega
  | userStop => have := hc ⟨.userStop, t⟩ (by simp); cases this
  | _ => exact absurd ht id

/-- a computed search is a possible search -/
theorem play_facts {V α : Type} {st : Strat ℚ V ℚ α} {l : List (ℚ ⊕ Bool)} {P : List (Ev ℚ V ℚ) × α → Bool}
    (h : (st.play l).map P = some true) : ∃ evs a, Plays st evs (.ret a) ∧ P (evs, a) = true := by
  rcases hs : st.play l with _ | ⟨evs, a⟩
  · rw [hs] at h; cases h
  · rw [hs] at h
    exact ⟨evs, a, Strat.play_sound hs, by simpa using h⟩

/-- a stop right after an evaluation is visible in the list of calls -/
def stoppedB {V : Type} (k : ℕ) : ℕ → List (Ev ℚ V ℚ) → Bool
  | i, ⟨.eval _ _, _⟩ :: ⟨.readConv, true⟩ :: l => decide (k ≤ i) || stoppedB k (i + 1) (⟨.readConv, true⟩ :: l)
  | i, e :: l => stoppedB k (i + if Ev.isObjective e then 1 else 0) l
  | _, [] => false

theorem stoppedB_of {V : Type} {k : ℕ} {i : ℕ} {pre : List (Ev ℚ V ℚ)} {x : V} {it : ℕ} {f : ℚ} {post : List (Ev ℚ V ℚ)}
    (h : k ≤ i + objectiveCalls pre) :
    stoppedB k i (pre ++ ⟨.eval x it, f⟩ :: ⟨.readConv, true⟩ :: post) = true := by
  induction pre generalizing i with
  | nil =>
    have : k ≤ i := by simpa [objectiveCalls] using h
    simp [stoppedB, this]
  | cons e pre ih =>
    have h' : objectiveCalls (e :: pre) = (if Ev.isObjective e then 1 else 0) + objectiveCalls pre := by
      simp only [objectiveCalls, List.countP_cons]; omega
    have key : stoppedB k (i + if Ev.isObjective e then 1 else 0)
        (pre ++ ⟨.eval x it, f⟩ :: ⟨.readConv, true⟩ :: post) = true := ih (by omega)
    rw [List.cons_append, stoppedB.eq_def]
    split
    · rename_i heq
      injection heq with h1 h2
      subst h1
      rw [h2] at key
      simp only [Ev.isObjective, if_true] at key
      rw [key]; simp
    · rename_i heq
      injection heq with h1 h2
      subst h1 h2
      exact key
    · rename_i heq; cases heq

/-- The complete search meets the hypotheses. -/
example : ∃ evs r, Plays (nmRun (exNm exArgsort1) 5 exSim) evs (.ret r) ∧ StopLaws 1000 evs ∧
    ¬ StoppedAfterEval 2 evs ∧ (evals evs).length = 4 := by
  obtain ⟨evs, r, hp, h⟩ := play_facts (st := nmRun (exNm exArgsort1) 5 exSim) (l := exScript)
    (P := fun q => lawfulB q.1 && !stoppedB 2 0 q.1 && decide ((evals q.1).length = 4)) (by decide +kernel)
  simp only [Bool.and_eq_true, decide_eq_true_eq, Bool.not_eq_true'] at h
  refine ⟨evs, r, hp, lawful_of h.1.1, ?_, h.2⟩
  rintro ⟨pre, x, it, f, post, rfl, hk⟩
  have := h.1.2
  rw [stoppedB_of (by omega)] at this
  cases this

/-- Violation found: a stop between reflection and expansion (NelderMead.py:117-119) throws the better reflected point
away. Values 5, 3, 2 were obtained, the returned minimum is 3. -/
theorem C24_interrupted_search_loses_best :
    ∃ evs r, Plays (nmRun (exNm exArgsort1) 5 exSim) evs (.ret r) ∧ StopLaws 1000 evs ∧
      (evals evs).map Prod.snd = [5, 3, 2] ∧ r.fMin = 3 := by
  obtain ⟨evs, r, hp, h⟩ := play_facts (st := nmRun (exNm exArgsort1) 5 exSim) (l := exScriptStop)
    (P := fun q => lawfulB q.1 && decide ((evals q.1).map Prod.snd = [5, 3, 2]) && decide (q.2.fMin = 3))
    (by decide +kernel)
  simp only [Bool.and_eq_true, decide_eq_true_eq] at h
  exact ⟨evs, r, hp, lawful_of h.1.1, h.1.2, h.2⟩

/-! ### C25: the result is a measured pair -/

/-- **C25** (for sorting methods that keep a leading minimum in front, e.g. stable ones): the returned minimum is the
value obtained at the returned point. -/
theorem C25_measured_pair_partial {r : DsmResult (Vec K n) F} (ha : IsArgsort c.argsort) (hk : KeepsLeader c.argsort)
    (hd : c.driftMinutes ≤ 0) (hp : Plays (nmRun c fuel sim0) evs (.ret r)) (hl : StopLaws m evs) :
    (r.xOpt, r.fMin) ∈ evals evs := (nm_plays ha hp hl).2.pair hd hk

/-- the stable sorting method meets both hypotheses -/
example : IsArgsort (exNm exArgsort1).argsort ∧ KeepsLeader (exNm exArgsort1).argsort :=
  ⟨exArgsort1_sorts, exArgsort1_keeps⟩

/-- Violation found: with a sorting method that is not stable (NumPy's default `argsort` is not for more than 16
entries), a stop in the middle of shrinking (NelderMead.py:156-161) may return a moved vertex together with the value of
its predecessor: the point 1/2 has the value 7, the returned pair is (1/2, 5). -/
theorem C25_unstable_sort_mixes_pairs :
    IsArgsort (exNm exArgsort2).argsort ∧
    ∃ evs r, Plays (nmRun (exNm exArgsort2) 5 exSim) evs (.ret r) ∧ StopLaws 1000 evs ∧
      (evals evs).map (fun p => (p.1 0, p.2)) = [(0, 5), (1, 5), (2, 5), (1 / 2, 7)] ∧ r.xOpt 0 = 1 / 2 ∧ r.fMin = 5 := by
  refine ⟨exArgsort2_sorts, ?_⟩
  obtain ⟨evs, r, hp, h⟩ := play_facts (st := nmRun (exNm exArgsort2) 5 exSim) (l := exScriptTie)
    (P := fun q => lawfulB q.1 && decide ((evals q.1).map (fun p => (p.1 0, p.2)) = [(0, 5), (1, 5), (2, 5), (1 / 2, 7)]) &&
      decide (q.2.xOpt 0 = 1 / 2) && decide (q.2.fMin = 5))
    (by decide +kernel)
  simp only [Bool.and_eq_true, decide_eq_true_eq] at h
  exact ⟨evs, r, hp, lawful_of h.1.1.1, h.1.1.2, h.1.2, h.2⟩

/-! ### C26: the simplex is well formed -/

/-- **C26.** Whenever the stopping criteria are checked (end of an iteration, also with drift compensation) the simplex
has `n + 1` values in ascending order, and the number of evaluations given to the criteria is the number of calls of the
objective so far. (Vertices have dimension `n` by the type of the model.) -/
theorem C26_sorted_simplex {m' : Strat K (Vec K n) F (DsmResult (Vec K n) F)} (ha : IsArgsort c.argsort)
    (hp : Plays (nmRun c fuel sim0) evs m') (hl : StopLaws m evs)
    {pre post : List (Ev K (Vec K n) F)} {size : Py K} {fs : List F} {calls : ℕ} {u : Unit}
    (he : evs = pre ++ ⟨.checkNM size fs calls, u⟩ :: post) :
    fs.length = n + 1 ∧ fs.Pairwise (· ≤ ·) ∧ calls = objectiveCalls pre := by
  obtain ⟨hc, f, hf, hmono, -⟩ := (nm_plays ha hp hl).1 _ _ _ _ he
  refine ⟨by rw [hf]; simp, ?_, hc⟩
  rw [hf, List.pairwise_ofFn]
  exact fun i j hij => hmono hij.le

/-- **C26.** The reported number of function evaluations is the number of calls of the objective. -/
theorem C26_reported_evaluations {r : DsmResult (Vec K n) F} (ha : IsArgsort c.argsort)
    (hp : Plays (nmRun c fuel sim0) evs (.ret r)) (hl : StopLaws m evs) : r.nfev = objectiveCalls evs :=
  (nm_plays ha hp hl).2.calls

/-- with drift compensation: measured again twice at the best point, which is announced; 2 + 2 + 2 + 1 calls,
the best value becomes the new average -/
example : ((nmRun { exNm exArgsort1 with driftMinutes := 1, driftAverage := 2 } 5 exSim).play
    [.inl 5, .inl 3, .inr false, .inl 2, .inr false, .inl 1, .inr false, .inl 2, .inl 4, .inl 3, .inr true, .inr true]).map
      (fun q => (q.2.fMin, q.2.nfev, objectiveCalls q.1)) = some (3, 7, 7) := by decide +kernel

/-! ### C27: bounded overshoot -/

/-- **C27.** With at most `m` evaluations per direct search (checked after every iteration), a search in dimension `n`
makes at most `max (m - 1) (n + 1) + n + 2` calls of the objective; with drift compensation, one more compensation
(`drift_comp_num_average` measurements and one announcement). -/
theorem C27_bounded_overshoot {r : DsmResult (Vec K n) F} (ha : IsArgsort c.argsort)
    (hp : Plays (nmRun c fuel sim0) evs (.ret r)) (hl : StopLaws m evs) :
    (objectiveCalls evs : ℤ) ≤ max (m - 1) (n + 1) + (n + 2) + (if c.driftMinutes > 0 then (c.driftAverage : ℤ) + 1 else 0) := by
  have h := (nm_plays ha hp hl).2.bound
  unfold NM.callBound NM.driftCost at h
  split at h <;> rename_i hd
  · rw [if_pos hd]; push_cast at h; exact h
  · rw [if_neg hd]; exact h

/-- **C27.** In a run (dCRAB, DirectSearch) the same bound holds for the evaluations reported by every search, with the
configured maximum. -/
theorem C27_in_run {C O : Type} (cfg : AlgCfg K F) (env : Env (Vec K n) C F) (ops : CtlOps O (Vec K n) C)
    (ha : IsArgsort c.argsort) (i : ℕ) (x sg : Vec K n) (sim : List (Vec K n)) (s s' : AlgState (Vec K n) C O F)
    (r : DsmResult (Vec K n) F)
    (h : (nelderMead c fuel i x sim sg).interp (algHandler cfg env ops) s = (.ok r, s')) :
    (r.nfev : ℤ) ≤ max (cfg.sc.maxEval - 1) (n + 1) + (n + 2) + (if c.driftMinutes > 0 then (c.driftAverage : ℤ) + 1 else 0) := by
  unfold nelderMead at h
  split at h
  swap
  · cases h
  obtain ⟨evs, m', s1, hp, hh, hr⟩ := interp_plays (algHandler cfg env ops) (nmRun c fuel fun i => sim[i]) s
  rcases hr with ⟨a, rfl, hr⟩ | ⟨o, k, e', s2, rfl, ho, hr⟩
  · rw [hr] at h; cases h
    have hl := hh.stopLaws
    rw [C26_reported_evaluations ha hp hl]
    exact C27_bounded_overshoot ha hp hl
  · rw [hr] at h; cases h

/-- The overshoot happens: with `m = 2` and dimension 1 a shrinking iteration makes five calls, the bound is 5. -/
example : ((nmRun (exNm exArgsort1) 5 exSim).play
    [.inl 5, .inl 6, .inr false, .inl 7, .inr false, .inl 7, .inr false, .inl 8, .inr true, .inr true]).map
      (fun q => q.2.nfev) = some 5 := by decide +kernel

/-! ### C28: the moves -/

theorem nmCoef_documented (adaptive : Bool) : (nmCoef adaptive n : NmCoef K) = documentedCoef adaptive n := by
  cases adaptive <;> rfl

/-- **C28.** Every point at which the search evaluates the objective is one of the documented points (`NmTrial`), with the documented
coefficients. -/
theorem C28_documented_moves {m' : Strat K (Vec K n) F (DsmResult (Vec K n) F)} (ha : IsArgsort c.argsort)
    (hp : Plays (nmRun c fuel sim0) evs m') (hl : StopLaws m evs)
    {pre post : List (Ev K (Vec K n) F)} {x : Vec K n} {it : ℕ} {f : F}
    (he : evs = pre ++ ⟨.eval x it, f⟩ :: post) : NmTrial (documentedCoef c.adaptive n) sim0 pre x := by
  rw [← nmCoef_documented]
  exact (nm_plays ha hp hl).1 _ _ _ _ he

/-- **C28, contractions contract.** The factors of contraction and shrinking are between 0 and 1, and expansion goes further than
reflection, for every dimension of at least 2. -/
theorem C28_factors [IsStrictOrderedRing K] (adaptive : Bool) (hn : 2 ≤ n) : let co : NmCoef K := documentedCoef adaptive n
    0 < co.sigma ∧ co.sigma < 1 ∧ 0 < co.psi ∧ co.psi < 1 ∧ 1 < co.chi ∧ co.psi * co.rho < co.rho ∧ co.rho < co.rho * co.chi := by
  have h2 : (2 : K) ≤ n := by exact_mod_cast hn
  have h0 : (0 : K) < n := by linarith
  have hi : (0 : K) < 1 / n := by positivity
  have hi2 : (1 : K) / n ≤ 1 / 2 := one_div_le_one_div_of_le (by norm_num) h2
  have e1 : (1 : K) / (2 * n) = 1 / 2 * (1 / n) := by rw [one_div_mul_one_div]
  have e2 : (2 : K) / n = 2 * (1 / n) := by rw [mul_one_div]
  cases adaptive
  · simp only [documentedCoef, Bool.false_eq_true, if_false]
    refine ⟨?_, ?_, ?_, ?_, ?_, ?_, ?_⟩ <;> norm_num
  · simp only [documentedCoef, if_true, mul_one, one_mul, e1, e2]
    refine ⟨?_, ?_, ?_, ?_, ?_, ?_, ?_⟩ <;> linarith

/-- With one variable, the adaptive factor of shrinking is zero: shrinking moves every vertex onto the best one. -/
theorem C28_adaptive_one_variable : (documentedCoef true 1 : NmCoef ℚ).sigma = 0 := by
  norm_num [documentedCoef]

/-- the documented points stay in an affine subspace that contains the vertices -/
theorem NmTrial.mem_affine [CharZero K] {co : NmCoef K} {start : Fin (n + 1) → Vec K n} {evs : List (Ev K (Vec K n) F)}
    {x : Vec K n} (h : NmTrial co start evs x) (S : AffineSubspace K (Vec K n)) (h0 : ∀ i, start i ∈ S)
    (h1 : ∀ y, Evaluated evs y → y ∈ S) : x ∈ S := by
  have hline : ∀ (p q : Vec K n) (t : K), p ∈ S → q ∈ S → p + t • (q - p) ∈ S := by
    intro p q t hp hq
    have := AffineSubspace.vadd_mem_of_mem_direction (S.direction.smul_mem t (AffineSubspace.vsub_mem_direction hq hp)) hp
    rw [vadd_eq_add, vsub_eq_sub, add_comm] at this
    exact this
  have hsub : n = 0 → x ∈ S := by
    rintro rfl
    have : x = start 0 := Subsingleton.elim _ _
    rw [this]; exact h0 0
  by_cases hn : n = 0
  · exact hsub hn
  have hcen : ∀ w : Fin (n + 1) → Vec K n, (∀ i, Evaluated evs (w i)) → centroid w ∈ S := by
    intro w hw
    have hnK : (n : K) ≠ 0 := Nat.cast_ne_zero.2 hn
    have e : centroid w = (1 / (n : K)) • (∑ i : Fin n, (w i.castSucc - start 0)) + start 0 := by
      unfold centroid
      rw [Finset.sum_sub_distrib, smul_sub]
      simp only [Finset.sum_const, Finset.card_univ, Fintype.card_fin]
      rw [← Nat.cast_smul_eq_nsmul K n (start 0), smul_smul, one_div_mul_cancel hnK, one_smul]
      simp
    rw [e]
    refine AffineSubspace.vadd_mem_of_mem_direction (S.direction.smul_mem _ (S.direction.sum_mem fun i _ => ?_)) (h0 0)
    exact AffineSubspace.vsub_mem_direction (h1 _ (hw _)) (h0 0)
  cases h with
  | start k hk => exact h0 k
  | reflect w hw =>
    have := hline _ _ (-co.rho) (hcen w hw) (h1 _ (hw (Fin.last n)))
    convert this using 1
    module
  | expand w hw =>
    have := hline _ _ (-(co.rho * co.chi)) (hcen w hw) (h1 _ (hw (Fin.last n)))
    convert this using 1
    module
  | outside w hw =>
    have := hline _ _ (-(co.psi * co.rho)) (hcen w hw) (h1 _ (hw (Fin.last n)))
    convert this using 1
    module
  | inside w hw =>
    have := hline _ _ co.psi (hcen w hw) (h1 _ (hw (Fin.last n)))
    convert this using 1
    module
  | shrink best v hb hv => exact hline _ _ _ (h1 _ hb) (h1 _ hv)
  | again v hv => exact h1 _ hv

/-- **C28.** Every point at which the search evaluates the objective lies in the affine hull of the start simplex. -/
theorem C28_affine_hull [CharZero K] {m' : Strat K (Vec K n) F (DsmResult (Vec K n) F)} (ha : IsArgsort c.argsort)
    (hp : Plays (nmRun c fuel sim0) evs m') (hl : StopLaws m evs) :
    ∀ p ∈ evals evs, p.1 ∈ affineSpan K (Set.range sim0) := by
  have key : ∀ pre post, evs = pre ++ post → ∀ p ∈ evals pre, p.1 ∈ affineSpan K (Set.range sim0) := by
    intro pre
    induction pre using List.reverseRecOn with
    | nil => intro post _ p hp; simp [evals] at hp
    | append_singleton pre e ih =>
      intro post he p hpp
      have hpre := ih (e :: post) (by rw [he]; simp)
      rw [evals_append] at hpp
      rcases List.mem_append.1 hpp with h | h
      · exact hpre p h
      · obtain ⟨o, r⟩ := e
        cases o with
        | eval x it =>
          simp only [evals_eval, List.mem_singleton] at h
          subst h
          refine (C28_documented_moves ha hp hl (pre := pre) (post := post) (x := x) (it := it) (f := r)
            (by rw [he]; simp)).mem_affine _ (fun i => subset_affineSpan K _ ⟨i, rfl⟩) ?_
          rintro y ⟨f, hf⟩
          exact hpre _ hf
        | _ => simp [evals, Ev.evaluated] at h
  exact key evs [] (by simp)

/-! ### C55: the start simplex when none is given -/

/-- Violation found (NelderMead.py:80-92): without a given start simplex, the start point is not a vertex (row 0 is
never written): the search starts at the origin, and the other vertices differ from the start point in one entry each. -/
theorem C55_default_simplex_partial (x0 : Vec K n) :
    nmDefaultSimplex x0 0 = 0 ∧
    ∀ k : Fin n, (∀ j, j ≠ k → nmDefaultSimplex x0 k.succ j = x0 j) ∧
      nmDefaultSimplex x0 k.succ k = if x0 k = 0 then 25 / 100000 else (1 + 5 / 100) * x0 k := by
  refine ⟨rfl, fun k => ⟨fun j hj => ?_, ?_⟩⟩
  · unfold nmDefaultSimplex; simp [Function.update_of_ne hj]
  · unfold nmDefaultSimplex
    simp only [Fin.cons_succ, Function.update_self, ne_eq, ite_not]

/-- Violation found: the start point `(1, 1)` is not a vertex of its start simplex. -/
theorem C55_start_point_is_lost : ∀ i, nmDefaultSimplex (fun _ => 1 : Vec ℚ 2) i ≠ fun _ => 1 := by decide +kernel

/-! ### C09: every run ends -/

section
variable {K V F : Type} [LE K] [DecidableLE K]
    [Add F] [Sub F] [Mul F] [Div F] [Neg F] [Zero F] [One F] [NatCast F] [LE F] [LT F] [DecidableLE F] [DecidableLT F]
    {C O : Type} {cfg : AlgCfg K F} {env : Env V C F} {ops : CtlOps O V C}

theorem NoMarker.errs (hm : NoMarker env ops) : Errs env ops NM.NotMarker := by
  constructor
  · exact fun e he => he
  · exact fun h c e he he' => hm.getFoM h c (he' ▸ he)
  · exact fun o x e he he' => hm.getControls o x (he' ▸ he)
  · exact fun o e he he' => hm.mean o (he' ▸ he)
  · exact fun o e he he' => hm.sigma o (he' ▸ he)
  · exact fun o x e he he' => hm.updateBase o x (he' ▸ he)
  · exact fun k o e he he' => hm.selectBasis k o (he' ▸ he)
  · exact fun k x y e he he' => hm.simplex k x y (he' ▸ he)

/-- search methods that do the same in the run give the same run -/
theorem execute_congr {d1 d2 : Dsm K V F}
    (h : ∀ i x sim sg, (d1 i x sim sg).interp (algHandler cfg env ops) = (d2 i x sim sg).interp (algHandler cfg env ops)) (o : O) :
    execute cfg env ops d1 o = execute cfg env ops d2 o := by
  have hd : dsmBuild cfg env ops d1 = dsmBuild cfg env ops d2 := by
    unfold dsmBuild
    simp only [h]
  have hloop : ∀ m k, dcrabLoop cfg env ops d1 m k = dcrabLoop cfg env ops d2 m k := by
    intro m
    induction m with
    | zero => exact fun k => rfl
    | succ m ih =>
      intro k
      unfold dcrabLoop superIteration
      simp only [hd, ih]
  unfold execute run
  simp only [h, hd, hloop]

end

/-- **C09.** A run with Nelder-Mead searches (dCRAB with any number of super-iterations, DirectSearch) ends: if the loop
of every search is observed for `max_eval_total + 2` rounds or more, no search is cut off. -/
theorem C09_no_search_is_cut_off {K F : Type} [Field K] [LinearOrder K]
    [Add F] [Sub F] [Mul F] [Div F] [Neg F] [Zero F] [One F] [NatCast F] [LE F] [LT F] [DecidableLE F] [DecidableLT F]
    {C O : Type} (cfg : AlgCfg K F) (env : Env (Vec K n) C F) (ops : CtlOps O (Vec K n) C)
    (hm : NoMarker env ops) (c : NmCfg K F n) (fuel : ℕ) (hf : cfg.maxEvalTotal.toNat + 2 ≤ fuel) (o : O) :
    (execute cfg env ops (nelderMead c fuel) o).1 ≠ .error .outOfFuel := by
  have hE := hm.errs
  exact fun he => execute_errs hE _ (NM.nelderMead_safe hE fuel hf) o _ he rfl

/-- **C09.** The outcome does not depend on how long the loops are observed: more rounds change nothing. -/
theorem C09_result_is_final {K F : Type} [Field K] [LinearOrder K]
    [Add F] [Sub F] [Mul F] [Div F] [Neg F] [Zero F] [One F] [NatCast F] [LE F] [LT F] [DecidableLE F] [DecidableLT F]
    {C O : Type} (cfg : AlgCfg K F) (env : Env (Vec K n) C F) (ops : CtlOps O (Vec K n) C)
    (hm : NoMarker env ops) (c : NmCfg K F n) (fuel : ℕ) (hf : cfg.maxEvalTotal.toNat + 2 ≤ fuel) (o : O) :
    execute cfg env ops (nelderMead c fuel) o = execute cfg env ops (nelderMead c (cfg.maxEvalTotal.toNat + 2)) o := by
  have hE := hm.errs
  exact execute_congr (NM.nelderMead_fuel hE fuel hf) o

/-- settings and environment of the example: a noisy function that never settles -/
def exNmEnv : Env (Vec ℚ 1) (Vec ℚ 1) ℚ :=
  { getFoM := fun h _ => .ok ⟨some (if h.length % 2 = 0 then 1 else 0), none, none⟩, async := fun _ => .none
    clock := fun n => n, sqrt := id, cdf := id }

/-- the controls are the search vector itself -/
def exNmOps : CtlOps Unit (Vec ℚ 1) (Vec ℚ 1) :=
  { getControls := fun _ x => .ok ((), x), mean := fun _ => .ok (fun _ => 0), sigma := fun _ => .ok (fun _ => 1)
    updateBase := fun _ _ => .ok (), selectBasis := fun _ _ => .ok ()
    simplex := fun _ _ _ => .ok [fun _ => 0, fun _ => 1] }

/-- the environment and the controls meet the hypothesis, and the run ends at its budget -/
example : NoMarker exNmEnv exNmOps ∧
    (execute (exCfg .directSearch 3 false none none) exNmEnv exNmOps (nelderMead (exNm exArgsort1) 5) ()).2.log.length = 3 := by
  refine ⟨?_, by decide +kernel⟩
  constructor <;> intros <;> simp [exNmEnv, exNmOps]

end QuOCS

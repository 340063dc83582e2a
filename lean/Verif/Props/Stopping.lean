/-
Properties of the stopping criteria of a direct search: C32, C33.
-/
import Mathlib.Analysis.Real.Sqrt
import Verif.Lemmas.Stopping
import Verif.Lemmas.LeastSquares
import Verif.Props.NelderMead

set_option linter.unusedSectionVars false
set_option linter.unusedVariables false

namespace QuOCS

section
variable {K F : Type} [LinearOrder K] [Field F] [LinearOrder F] [IsStrictOrderedRing F]
variable {c : ScCfg K F} {sqrt : F → F} {sc : Sc F}

theorem variance_eq (f : List F) : variance f = spreadSq f := by
  unfold variance spreadSq mean
  simp only [List.length_map, pow_two]

/-! ### C32: the checks -/

/-- **C32.** Checking the criteria after an iteration of Nelder-Mead: a search that is not stopped yet is stopped exactly
if one of the criteria is met, and then the reason names a criterion that is met. -/
theorem C32_nelderMead_check {d : K} {fs : List F} {calls : ℕ} {now : ℚ} (hc : sc.isConverged = false) :
    ∃ sc', nmCheck sqrt c sc (.ok d) fs calls now = .ok sc' ∧
      (sc'.isConverged = true ↔ ∃ cr : Criterion, cr.Met sqrt c ⟨calls, some d, fs, now - sc.startTime⟩) ∧
      (sc'.isConverged = true → ∃ cr : Criterion, cr.Met sqrt c ⟨calls, some d, fs, now - sc.startTime⟩ ∧ sc'.reason = cr.text) := by
  unfold nmCheck
  rw [if_neg (by rw [hc]; simp)]
  simp only [checkFuncEval, checkSimplex, checkFSize, checkTimeOut, variance_eq, ge_iff_le]
  by_cases h1 : c.maxEval ≤ (calls : ℤ)
  · refine ⟨_, by rw [if_pos (by simpa using h1)], ?_, ?_⟩
    · simp only [decide_eq_true h1, true_iff]; exact ⟨.evaluations, h1⟩
    · exact fun _ => ⟨.evaluations, h1, rfl⟩
  rw [if_neg (by simpa using h1)]
  by_cases h2 : d ≤ c.xatol
  · refine ⟨_, by rw [if_pos (by simpa using h2)], ?_, ?_⟩
    · simp only [decide_eq_true h2, true_iff]; exact ⟨.simplex, d, rfl, h2⟩
    · exact fun _ => ⟨.simplex, ⟨d, rfl, h2⟩, rfl⟩
  rw [if_neg (by simpa using h2)]
  by_cases h3 : sqrt (spreadSq fs) ≤ c.fatol
  · refine ⟨_, by rw [if_pos h3, if_pos rfl], ?_, ?_⟩
    · simp only [true_iff]; exact ⟨.spread, h3⟩
    · exact fun _ => ⟨.spread, h3, rfl⟩
  rw [if_neg h3, if_neg (by simp)]
  by_cases h4 : c.timeLim ≤ now - sc.startTime
  · refine ⟨_, by rw [if_pos (by simpa using h4)], ?_, ?_⟩
    · simp only [decide_eq_true h4, true_iff]; exact ⟨.time, h4⟩
    · exact fun _ => ⟨.time, h4, rfl⟩
  refine ⟨_, by rw [if_neg (by simpa using h4)], ?_, ?_⟩
  · simp only [decide_eq_false h4, Bool.false_eq_true, false_iff]
    rintro ⟨cr, hm⟩
    cases cr with
    | evaluations => exact h1 hm
    | simplex => obtain ⟨d', hd, hm⟩ := hm; cases hd; exact h2 hm
    | spread => exact h3 hm
    | time => exact h4 hm
  · simp only [decide_eq_false h4]
    exact fun h => by cases h

/-- **C32.** The same for CMA-ES, which has no simplex. -/
theorem C32_cmaes_check {fs : List F} {calls : ℕ} {now : ℚ} (hc : sc.isConverged = false) :
    ((cmaCheck sqrt c sc fs calls now).isConverged = true ↔
      ∃ cr : Criterion, cr.Met sqrt c ⟨calls, none, fs, now - sc.startTime⟩) ∧
    ((cmaCheck sqrt c sc fs calls now).isConverged = true →
      ∃ cr : Criterion, cr.Met sqrt c ⟨calls, none, fs, now - sc.startTime⟩ ∧
        (cmaCheck sqrt c sc fs calls now).reason = cr.text) := by
  unfold cmaCheck
  rw [if_neg (by rw [hc]; simp)]
  simp only [checkFuncEval, checkFSize, checkTimeOut, variance_eq, ge_iff_le]
  by_cases h1 : c.maxEval ≤ (calls : ℤ)
  · rw [if_pos (by simpa using h1)]
    refine ⟨?_, fun _ => ⟨.evaluations, h1, rfl⟩⟩
    simp only [decide_eq_true h1, true_iff]; exact ⟨.evaluations, h1⟩
  rw [if_neg (by simpa using h1)]
  by_cases h3 : sqrt (spreadSq fs) ≤ c.fatol
  · rw [if_pos h3, if_pos rfl]
    refine ⟨?_, fun _ => ⟨.spread, h3, rfl⟩⟩
    simp only [true_iff]; exact ⟨.spread, h3⟩
  rw [if_neg h3, if_neg (by simp)]
  by_cases h4 : c.timeLim ≤ now - sc.startTime
  · refine ⟨?_, fun _ => ⟨.time, h4, rfl⟩⟩
    simp only [decide_eq_true h4, true_iff]; exact ⟨.time, h4⟩
  · refine ⟨?_, fun h => ?_⟩
    · simp only [decide_eq_false h4, Bool.false_eq_true, false_iff]
      rintro ⟨cr, hm⟩
      cases cr with
      | evaluations => exact h1 hm
      | simplex => obtain ⟨d', hd, hm⟩ := hm; cases hd
      | spread => exact h3 hm
      | time => exact h4 hm
    · simp only [decide_eq_false h4] at h
      cases h

/-- **C32.** A search that is stopped already stays as it is. -/
theorem C32_stopped_stays {size : Py K} {fs : List F} {calls : ℕ} {now : ℚ} (hc : sc.isConverged = true) :
    nmCheck sqrt c sc size fs calls now = .ok sc ∧ cmaCheck sqrt c sc fs calls now = sc := by
  unfold nmCheck cmaCheck
  rw [if_pos hc, if_pos hc]
  exact ⟨rfl, rfl⟩

/-- **C32.** With a proper square root the spread criterion compares the mean squared deviation with the squared
tolerance. -/
theorem C32_spread_criterion (hs : IsSqrt sqrt) (s : Situation K F) :
    Criterion.Met sqrt c s .spread ↔ 0 ≤ c.fatol ∧ spreadSq s.foms ≤ c.fatol ^ 2 := by
  refine hs _ _ ?_
  unfold spreadSq
  refine div_nonneg (List.sum_nonneg fun x hx => ?_) (Nat.cast_nonneg _)
  obtain ⟨y, -, rfl⟩ := List.mem_map.1 hx
  exact sq_nonneg _

end

/-- the square root of the reals is proper -/
example : IsSqrt Real.sqrt := fun _ _ _ => Real.sqrt_le_iff

/-- settings: 10 evaluations, simplex 1/10, spread 1/100, 5 minutes -/
def exScCfg : ScCfg ℚ ℚ :=
  { maxEval := 10, timeLim := 5, xatol := 1 / 10, fatol := 1 / 100, cbsEvals := 1, cbsChange := 0 }

/-- the spread of 2, 4, 6 is 8/3 -/
example : spreadSq ([2, 4, 6] : List ℚ) = 8 / 3 := by decide +kernel

/-- nothing met: goes on; small simplex: stops for that reason -/
example :
    ((nmCheck id exScCfg ⟨false, "", 1, []⟩ (.ok (1 / 2)) [2, 4, 6] 3 4).toOption.map (fun s => s.isConverged),
     (nmCheck id exScCfg ⟨false, "", 1, []⟩ (.ok (1 / 20)) [2, 4, 6] 3 4).toOption.map (fun s => (s.isConverged, s.reason)))
    = (some false, some (true, "Convergence of the simplex.")) := by decide +kernel

/-! ### C33: the change-based criterion -/

section
variable {K F : Type} [LinearOrder K] [Field F] [LinearOrder F] [IsStrictOrderedRing F]

theorem changeFires_iff (c : ScCfg K F) (t : List F) : ChangeFires c t ↔ ChangeMet c t := by
  unfold ChangeFires ChangeMet
  refine and_congr_right fun h1 => ?_
  have hlen : c.cbsEvals.toNat ≤ t.length ↔ c.cbsEvals ≤ (t.length : ℤ) := by omega
  rw [hlen]
  refine and_congr_right fun h2 => ?_
  have hn : 2 ≤ (t.drop (t.length - c.cbsEvals.toNat)).length := by rw [List.length_drop]; omega
  rw [pyAbs_eq]
  constructor
  · intro h
    exact ⟨_, _, lsSlope_isLeastSquares _ hn, h⟩
  · rintro ⟨a, b, hl, h⟩
    rw [leastSquares_unique _ hn hl] at h
    exact h

/-- **C33.** The change-based check stops the search exactly if the criterion is met for the values measured so far: it
is switched on, there are at least `n` values, and the least-squares line through the last `n` values changes by less
than the given threshold over `n` evaluations. -/
theorem C33_change_check (c : ScCfg K F) (sc : Sc F) :
    (checkAdvanced c sc).isConverged = true ↔ sc.isConverged = true ∨ ChangeMet c sc.track := by
  rw [Progs.checkAdvanced_fires, changeFires_iff]

/-- **C33.** Only the last `n` values matter. -/
theorem C33_only_last_values (c : ScCfg K F) (t t' : List F) (hl : c.cbsEvals ≤ (t.length : ℤ)) :
    ChangeMet c (t' ++ t) ↔ ChangeMet c t := by
  unfold ChangeMet
  have h1 : c.cbsEvals ≤ ((t' ++ t).length : ℤ) := by rw [List.length_append]; push_cast; omega
  have h2 : (t' ++ t).drop ((t' ++ t).length - c.cbsEvals.toNat) = t.drop (t.length - c.cbsEvals.toNat) := by
    rw [List.drop_append, List.length_append]
    rw [List.drop_eq_nil_of_le (by omega), List.nil_append]
    congr 1; omega
  rw [h2]
  simp only [h1, hl, true_and]

/-- **C33.** The slope is well defined: through two or more values there is exactly one least-squares slope. -/
theorem C33_unique_slope (f : List F) (hn : 2 ≤ f.length) : ∃! a, ∃ b, IsLeastSquaresLine f a b := by
  refine ⟨lsSlope f, ⟨_, lsSlope_isLeastSquares _ hn⟩, ?_⟩
  rintro a ⟨b, h⟩
  exact leastSquares_unique _ hn h

end

/-- the line through 5, 3, 4 has slope -1/2; over three values it changes by 3/2 -/
example : lsSlope ([5, 3, 4] : List ℚ) = -1 / 2 := by decide +kernel

/-- with threshold 2 and three values the criterion is met after 9, 5, 3, 4, not after 9, 5, 3 -/
example :
    ChangeMet ({ exScCfg with cbsEvals := 3, cbsChange := 2 } : ScCfg ℚ ℚ) [9, 5, 3, 4] ∧
    ¬ ChangeMet ({ exScCfg with cbsEvals := 3, cbsChange := 2 } : ScCfg ℚ ℚ) [9, 5, 3] := by
  rw [← changeFires_iff, ← changeFires_iff]
  unfold ChangeFires
  decide +kernel

/-! ### C32, C33: a search in a run -/

section
variable {K F : Type} {n : ℕ} [Field K] [LinearOrder K] [Field F] [LinearOrder F] [IsStrictOrderedRing F]
variable {C O : Type} {cfg : AlgCfg K F} {env : Env (Vec K n) C F} {ops : CtlOps O (Vec K n) C}
variable {c : NmCfg K F n} {fuel : ℕ} {s s' : AlgState (Vec K n) C O F}

theorem metAt_of_fires {o : Op K (Vec K n) F} {r : o.Res} {s1 s2 : AlgState (Vec K n) C O F}
    (ho : algHandler cfg env ops o s1 = (.ok r, s2)) (hc : s1.sc.isConverged = false)
    (h : CheckFires cfg env s1 o) : ∃ cr, MetAt cfg env s1 o cr ∧ s2.sc.reason = cr.text := by
  cases o with
  | checkNM size fs calls =>
    obtain ⟨sc, h1, h2⟩ := h
    have hs2 : s2.sc = sc := by
      simp only [algHandler] at ho
      rw [Prog.bind_apply] at ho
      simp only [readClock] at ho
      rw [Prog.get_bind, Prog.bind_apply, Prog.lift_apply] at ho
      dsimp only at ho
      rw [h1] at ho
      cases ho; rfl
    rw [hs2]
    cases size with
    | ok d =>
      obtain ⟨sc', h3, -, h4⟩ := C32_nelderMead_check (sqrt := env.sqrt) (c := cfg.sc) (d := d) (fs := fs) (calls := calls)
        (now := env.clock s1.ticks) hc
      rw [h1] at h3
      cases h3
      exact h4 h2
    | error e =>
      unfold nmCheck at h1
      rw [if_neg (by rw [hc]; simp)] at h1
      simp only [checkFuncEval, checkSimplex, decide_eq_true_eq] at h1
      by_cases h3 : (calls : ℤ) ≥ cfg.sc.maxEval
      · rw [if_pos h3] at h1
        cases h1
        exact ⟨.evaluations, h3, rfl⟩
      · rw [if_neg h3] at h1
        cases h1
  | checkCMA fs calls =>
    have hs2 : s2.sc = cmaCheck env.sqrt cfg.sc s1.sc fs calls (env.clock s1.ticks) := by
      simp only [algHandler] at ho
      cases ho; rfl
    rw [hs2]
    exact (C32_cmaes_check hc).2 h
  | _ => exact absurd h id

/-- the discipline of a Nelder-Mead search -/
theorem nm_disciplined {evs : List (Ev K (Vec K n) F)} {m' : Strat K (Vec K n) F (DsmResult (Vec K n) F)}
    {sim0 : Fin (n + 1) → Vec K n} {s1 : AlgState (Vec K n) C O F} (hf : cfg.maxEvalTotal.toNat + 2 ≤ fuel)
    (hp : Plays (nmRun c fuel sim0) evs m') (hh : Handled (algHandler cfg env ops) s evs s1) : Disciplined evs := by
  have hw := (hp.of_wp (A := NM.A2 cfg.sc.maxEval cfg.maxEvalTotal.toNat) (h := []) (fun pre post hpp => by
      have h1 := hh.stopLaws
      have h2 := hh.budgetLaws
      rw [hpp] at h1
      refine ⟨h1.prefix, fun pre' post' he' => h2 pre' (post' ++ post) ?_⟩
      simp only [List.nil_append] at he'
      rw [hpp, he']; simp) (NM.run2 fuel hf _)).1
  intro pre o r post he
  have := hw pre o r post he
  simp only [List.nil_append] at this
  constructor
  · rintro b rfl; exact this
  · rintro rfl; exact this

/-- a disciplined search whose last calls saw the stop and asked for the reason -/
theorem search_reason {evs : List (Ev K (Vec K n) F)} {r : DsmResult (Vec K n) F} (hd : Disciplined evs)
    (hh : Handled (algHandler cfg env ops) s evs s')
    (h0 : ∃ u evs', evs = (⟨.setConv false, u⟩ : Ev K (Vec K n) F) :: evs')
    (he : ∃ pre, evs = pre ++ [⟨.readConv, true⟩, ⟨.reason, r.reason⟩]) :
    s'.sc.isConverged = true ∧ (s'.running = false ∨
      ∃ pre o ans s1 s2, Handled (algHandler cfg env ops) s pre s1 ∧ algHandler cfg env ops o s1 = (.ok ans, s2) ∧
        ((∃ cr, MetAt cfg env s1 o cr ∧ (¬ 1 < cfg.sc.cbsEvals → r.reason = cr.text)) ∨
          ∃ t, s1.sc.track <+: t ∧ t <+: s2.sc.track ∧ ChangeMet cfg.sc t)) := by
  obtain ⟨pre, he⟩ := he
  -- the flag is set in the end, and the reason is the reported one
  have hcr : s'.sc.isConverged = true ∧ r.reason = s'.sc.reason := by
    rw [he] at hh
    rw [show pre ++ [(⟨.readConv, true⟩ : Ev K (Vec K n) F), ⟨.reason, r.reason⟩] =
      pre ++ [⟨.readConv, true⟩] ++ [⟨.reason, r.reason⟩] by simp] at hh
    obtain ⟨s2, h2, h3⟩ := Handled.snoc.1 hh
    obtain ⟨s3, h4, h5⟩ := Handled.snoc.1 h2
    have hc : s2.sc.isConverged = true := algHandler_converges h5 (show Ev.Converges cfg.sc.maxEval ⟨.readConv, true⟩ from rfl)
    simp only [algHandler] at h3
    have h6 : (Except.ok s2.sc.reason : Py String) = .ok r.reason := congrArg Prod.fst h3
    have h7 : s2 = s' := congrArg Prod.snd h3
    injection h6 with h6
    rw [← h7]
    exact ⟨hc, h6.symm⟩
  refine ⟨hcr.1, ?_⟩
  obtain ⟨u, evs', rfl⟩ := h0
  rcases hh.cause hd hcr.1 with h | ⟨pre', o, ans, post, s1, s2, -, h1, h2, h3, h4, h5⟩
  · exact .inl h
  · refine .inr ⟨pre', o, ans, s1, s2, h1, h2, ?_⟩
    rcases h4 with h4 | ⟨t, h6, h7, h8⟩
    · obtain ⟨cr, h9, h10⟩ := metAt_of_fires h2 h3 h4
      exact .inl ⟨cr, h9, fun hb => by rw [hcr.2, h5 hb, h10]⟩
    · exact .inr ⟨t, h6, h7, (changeFires_iff _ _).1 h8⟩

/-- **C32.** In a run: a Nelder-Mead search ends only if it was stopped: the run itself was stopped (budget, time, goal,
user), or one of the criteria was met when they were checked, or the change-based criterion was met for the values
measured so far. In the second case, if the change-based criterion is not used, the reported reason names the criterion. -/
theorem C32_search_ends_for_a_reason {i : ℕ} {x sg : Vec K n} {sim : List (Vec K n)} {r : DsmResult (Vec K n) F}
    (hf : cfg.maxEvalTotal.toNat + 2 ≤ fuel)
    (h : (nelderMead c fuel i x sim sg).interp (algHandler cfg env ops) s = (.ok r, s')) :
    s'.sc.isConverged = true ∧ (s'.running = false ∨
      ∃ pre o ans s1 s2, Handled (algHandler cfg env ops) s pre s1 ∧ algHandler cfg env ops o s1 = (.ok ans, s2) ∧
        ((∃ cr, MetAt cfg env s1 o cr ∧ (¬ 1 < cfg.sc.cbsEvals → r.reason = cr.text)) ∨
          ∃ t, s1.sc.track <+: t ∧ t <+: s2.sc.track ∧ ChangeMet cfg.sc t)) := by
  unfold nelderMead at h
  split at h
  swap
  · cases h
  obtain ⟨evs, m', s1, hp, hh, hr⟩ := interp_plays (algHandler cfg env ops) (nmRun c fuel fun i => sim[i]) s
  rcases hr with ⟨a, rfl, hr⟩ | ⟨o, k, e', s2, rfl, ho, hr⟩
  swap
  · rw [hr] at h; cases h
  rw [hr] at h
  cases h
  have hd := nm_disciplined hf hp hh
  have he := (hp.of_wp (A := NM.T2) (h := []) (fun _ _ _ => trivial) (NM.run3 fuel _)).2
  simp only [List.nil_append] at he
  refine search_reason hd hh ?_ he
  cases hp with
  | cons o k r evs m' h => exact ⟨_, _, rfl⟩

/-- once the flag is set, a disciplined search that looks at the flag before calling the objective makes no call -/
theorem no_more_calls {evs pre post : List (Ev K (Vec K n) F)} {chk : Ev K (Vec K n) F} {s3 : AlgState (Vec K n) C O F}
    (hd : Disciplined evs) (he : evs = pre ++ chk :: post) (h4 : Handled (algHandler cfg env ops) s3 post s')
    (hc : s3.sc.isConverged = true)
    (hfresh : ∀ (a : List (Ev K (Vec K n) F)) (o : Op K (Vec K n) F) (r : o.Res) b, post = a ++ ⟨o, r⟩ :: b → Ev.isObjective (⟨o, r⟩ : Ev K (Vec K n) F) = true →
      (⟨.readConv, false⟩ : Ev K (Vec K n) F) ∈ a) : objectiveCalls post = 0 := by
  by_contra hne
  obtain ⟨e, hmem, hobj⟩ := List.countP_pos_iff.1 (Nat.pos_of_ne_zero hne)
  obtain ⟨a, b, hab⟩ := List.append_of_mem hmem
  obtain ⟨o, r⟩ := e
  obtain ⟨a1, a2, ha⟩ := List.append_of_mem (hfresh a o r b hab hobj)
  subst he
  rw [hab, ha] at h4
  simp only [List.append_assoc, List.cons_append] at h4
  obtain ⟨s4, h5, s5, h6, -⟩ := Handled.append.1 h4
  have hc4 : s4.sc.isConverged = true := h5.conv (fun b' hb => by
    obtain ⟨p, q, hpq⟩ := List.append_of_mem hb
    have := (hd (pre ++ chk :: p) (.setConv b') () (q ++ ⟨.readConv, false⟩ :: a2 ++ ⟨o, r⟩ :: b)
      (by rw [hab, ha, hpq]; simp)).1 b' rfl
    exact absurd this.1 (by simp)) hc
  have hc5 : Ev.Converges cfg.sc.maxEval (⟨.readConv, true⟩ : Ev K (Vec K n) F) := rfl
  simp only [algHandler] at h6
  rw [Prog.bind_apply] at h6
  rcases hpl : poll cfg env s4 with ⟨e | w, s6⟩
  · rw [hpl] at h6; cases h6
  · rw [hpl] at h6
    dsimp only at h6
    rw [Prog.get_bind] at h6
    have h8 : (Except.ok s6.sc.isConverged : Py Bool) = .ok false := congrArg Prod.fst h6
    injection h8 with h8
    have h9 := (Stable.conv (ops := ops)).poll (cfg := cfg) (env := env) (E := fun _ => True) Errs.all s4 hc4
    rw [hpl] at h9
    rw [h9.1] at h8
    cases h8

/-- **C32.** In a run: if one of the criteria is met when they are checked, the search does not call the objective again. -/
theorem C32_met_criterion_ends_search {evs pre post : List (Ev K (Vec K n) F)} {sim0 : Fin (n + 1) → Vec K n}
    {m' : Strat K (Vec K n) F (DsmResult (Vec K n) F)} {size : Py K} {fs : List F} {calls : ℕ} {u : Unit}
    {s1 : AlgState (Vec K n) C O F} {cr : Criterion} (hf : cfg.maxEvalTotal.toNat + 2 ≤ fuel)
    (hp : Plays (nmRun c fuel sim0) evs m') (hh : Handled (algHandler cfg env ops) s evs s')
    (he : evs = pre ++ ⟨.checkNM size fs calls, u⟩ :: post) (h1 : Handled (algHandler cfg env ops) s pre s1)
    (hm : MetAt cfg env s1 (.checkNM size fs calls) cr) : objectiveCalls post = 0 := by
  have hd := nm_disciplined hf hp hh
  subst he
  obtain ⟨s2, h2, s3, h3, h4⟩ := Handled.append.1 hh
  have hs : s2 = s1 := h2.det h1
  subst hs
  -- the flag is set by the check
  have hc : s3.sc.isConverged = true := by
    simp only [algHandler] at h3
    rw [Prog.bind_apply] at h3
    simp only [readClock] at h3
    rw [Prog.get_bind, Prog.bind_apply, Prog.lift_apply] at h3
    dsimp only at h3
    rcases hn : nmCheck env.sqrt cfg.sc s2.sc size fs calls (env.clock s2.ticks) with e | sc
    · rw [hn] at h3; cases h3
    rw [hn] at h3
    have h7 : s3.sc = sc := by
      have h6 : _ = s3 := congrArg Prod.snd h3
      rw [← h6]; rfl
    rw [h7]
    by_cases hc : s2.sc.isConverged = true
    · rw [(C32_stopped_stays hc).1] at hn
      cases hn; exact hc
    · have hc : s2.sc.isConverged = false := by simpa using hc
      cases size with
      | ok d =>
        obtain ⟨sc', h5, h6, -⟩ := C32_nelderMead_check (sqrt := env.sqrt) (c := cfg.sc) (d := d) (fs := fs) (calls := calls)
          (now := env.clock s2.ticks) hc
        rw [hn] at h5
        cases h5
        exact h6.2 ⟨cr, hm⟩
      | error e =>
        unfold nmCheck at hn
        rw [if_neg (by rw [hc]; simp)] at hn
        simp only [checkFuncEval, checkSimplex, decide_eq_true_eq] at hn
        by_cases hge : (calls : ℤ) ≥ cfg.sc.maxEval
        · rw [if_pos hge] at hn
          cases hn
          exact decide_eq_true hge
        · rw [if_neg hge] at hn
          cases hn
  -- hence no call of the objective is allowed
  refine no_more_calls hd rfl h4 hc fun a o r b hab hobj => ?_
  have hG := (hp.of_wp (A := NM.T2) (h := []) (fun _ _ _ => trivial) (NM.run5 fuel sim0)).1
    (pre ++ ⟨.checkNM size fs calls, u⟩ :: a) o r b (by rw [hab]; simp)
  have hF : NM.Fresh (pre ++ ⟨.checkNM size fs calls, u⟩ :: a) := by
    cases o <;> first | exact hG | cases hobj
  exact hF _ _ _ _ _ _ rfl

/-- **C33.** In a run: the values the change-based criterion looks at are the figures of merit measured since the search
started, appended to those at its start (the list is emptied when a super-iteration of dCRAB begins, and empty in the
beginning of a run); the reference time does not change during a search. For every search method. -/
theorem C33_values_of_this_search {evs : List (Ev K (Vec K n) F)} (hh : Handled (algHandler cfg env ops) s evs s')
    (hk : cfg.kind ≠ .grape) (hb : 1 < cfg.sc.cbsEvals) :
    s'.sc.startTime = s.sc.startTime ∧ ∃ l, s'.log = s.log ++ l ∧ s'.sc.track = s.sc.track ++ seenFoMs cfg l := by
  obtain ⟨h1, l, h2, h3⟩ := hh.hist
  refine ⟨h1, l, h2, ?_⟩
  rw [h3]
  unfold tracked
  rw [if_pos ⟨hk, hb⟩]

end

/-- settings of the examples: a total budget of `m` evaluations, at most `k` per search -/
def exStop (m k : ℤ) (cbs : ℤ) : AlgCfg ℚ ℚ :=
  { exCfg .directSearch m false none none with
    sc := { maxEval := k, timeLim := 1000, xatol := 0, fatol := 0, cbsEvals := cbs, cbsChange := 1 / 10 } }

/-- A search in a run that meets the hypotheses of `C32_search_ends_for_a_reason`: it ends because four evaluations were
made, the run is not stopped, and the reason is right. -/
example :
    (((nelderMead (exNm exArgsort1) 12 0 (fun _ => 0) [fun _ => 0, fun _ => 1] (fun _ => 1)).interp
      (algHandler (exStop 10 3 1) exNmEnv exNmOps) (initState (exStop 10 3 1) exNmEnv ())).1.toOption.map (fun r => r.reason),
     ((nelderMead (exNm exArgsort1) 12 0 (fun _ => 0) [fun _ => 0, fun _ => 1] (fun _ => 1)).interp
      (algHandler (exStop 10 3 1) exNmEnv exNmOps) (initState (exStop 10 3 1) exNmEnv ())).2.running) =
    (some Criterion.evaluations.text, true) := by decide +kernel

/-- Violation found: when the run is stopped (here by the total budget of two evaluations), the reported reason of the
search may be a left-over of earlier checks: with the change-based criterion switched on (100 values required,
StoppingCriteria.py:145 sets the reason before anything is compared) it names this criterion after two evaluations. -/
theorem C32_reason_names_unmet_criterion :
    ((nelderMead (exNm exArgsort1) 4 0 (fun _ => 0) [fun _ => 0, fun _ => 1] (fun _ => 1)).interp
      (algHandler (exStop 2 1000 100) exNmEnv exNmOps) (initState (exStop 2 1000 100) exNmEnv ())).1.toOption.map
        (fun r => r.reason) = some "Change-based stopping criterion reached." ∧
    ((nelderMead (exNm exArgsort1) 4 0 (fun _ => 0) [fun _ => 0, fun _ => 1] (fun _ => 1)).interp
      (algHandler (exStop 2 1000 100) exNmEnv exNmOps) (initState (exStop 2 1000 100) exNmEnv ())).2.log.length = 2 ∧
    ∀ t : List ℚ, t.length ≤ 2 → ¬ ChangeMet (exStop 2 1000 100).sc t := by
  refine ⟨by decide +kernel, by decide +kernel, ?_⟩
  rintro t ht ⟨-, h, -⟩
  have : (exStop 2 1000 100).sc.cbsEvals = 100 := rfl
  omega

end QuOCS

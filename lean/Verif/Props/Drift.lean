/-
C93: drift compensation inside a Nelder-Mead search.
-/
import Mathlib.Algebra.Order.Ring.Rat
import Mathlib.Tactic.NormNum
import Mathlib.Algebra.Order.BigOperators.Group.List
import Verif.Lemmas.Drift
import Verif.Lemmas.BestMean
import Verif.Props.NelderMead
import Verif.Props.Run

set_option linter.unusedSectionVars false
set_option linter.unusedVariables false

namespace QuOCS
variable {K F : Type} {n : ℕ}

section
variable [Field K] [LinearOrder K] [Field F] [LinearOrder F]

/-- **C93** (when and what). Whenever a Nelder-Mead search announces a drift-compensated figure of merit `v` for a point `x`:
compensation is switched on; the clock was read, and at least `compensate_after_minutes` had passed since the last
compensation (or the start of the search); after that `x` was measured exactly `num_average` times with nothing in between; and
`v` is the mean of these measurements. For every start simplex, all figures of merit, clocks and stops. -/
theorem C93_announcement {c : NmCfg K F n} {fuel : ℕ} {sim : Fin (n + 1) → Vec K n} {evs : List (Ev K (Vec K n) F)}
    {m : Strat K (Vec K n) F (DsmResult (Vec K n) F)} (hp : Plays (nmRun c fuel sim) evs m)
    {pre post : List (Ev K (Vec K n) F)} {x : Vec K n} {it : ℕ} {v r : F} (he : evs = pre ++ ⟨.drift x it v, r⟩ :: post) :
    0 < c.driftMinutes ∧ ∃ before last due fs t,
      pre = before ++ [⟨.readConv, false⟩, ⟨.now, due⟩] ++ measurements x it fs ++ [⟨.now, t⟩] ∧
      LastCompensation before last ∧ c.driftMinutes ≤ due - last ∧
      fs.length = c.driftAverage ∧ c.driftAverage ≠ 0 ∧ v = fs.sum / (c.driftAverage : F) := by
  have hw := (hp.of_wp (A := DriftT) (fun _ _ _ => trivial) (nmRun_wpD fuel sim)).1 pre (.drift x it v) r post he
  obtain ⟨h0, tl, t0, fs, t1, h1, h2, h3, h4, h5, h6, h7⟩ := hw x it v rfl
  refine ⟨h6, h0, tl, t0, fs, t1, ?_, h5, h7, h2, h3, ?_⟩
  · rw [List.nil_append] at h1
    rw [h1]; simp
  · rw [h4, List.sum_eq_foldl]

/-- **C93** (what it changes). A compensation that is carried out measures the best row of the simplex again and announces the
mean; the points of the simplex stay where they are, and the known value of every row is moved by the same amount: the mean minus the old
best value. -/
theorem C93_values_follow {c : NmCfg K F n} {s s' : NmState K F n} {evs : List (Ev K (Vec K n) F)}
    (h : Plays (nmDriftDo c s) evs (.ret s')) :
    ∃ fs t r, fs.length = c.driftAverage ∧ c.driftAverage ≠ 0 ∧
      evs = measurements (s.sim 0) s.iterations fs ++
        [⟨.now, t⟩, ⟨.drift (s.sim 0) s.iterations (fs.sum / (c.driftAverage : F)), r⟩] ∧
      s'.sim = s.sim ∧ s'.iterations = s.iterations ∧ s'.lastDrift = t ∧ s'.calls = s.calls + objectiveCalls evs ∧
      ∀ i, s'.fsim i = s.fsim i + (fs.sum / (c.driftAverage : F) - s.fsim 0) := by
  obtain ⟨fs, t, r, h1, h2, h3, rfl⟩ := nmDriftDo_plays h
  rw [← List.sum_eq_foldl] at h3 ⊢
  refine ⟨fs, t, r, h1, h2, h3, rfl, rfl, rfl, ?_, ?_⟩
  · rw [h3, objectiveCalls_append, ← h1]
    have : objectiveCalls (measurements (s.sim 0) s.iterations fs : List (Ev K (Vec K n) F)) = fs.length := by
      unfold objectiveCalls measurements
      rw [List.countP_map]
      exact List.countP_eq_length.2 fun _ _ => rfl
    rw [this]
    rfl
  · intro i
    show (if i = 0 then _ else _) = _
    split
    · next hi => rw [hi]; ring
    · rfl

variable [IsStrictOrderedRing F]

/-- shifting all figures of merit is not noticed by the search -/
theorem fits_shift {c : NmCfg K F n} (hsort : ∀ (f : Fin (n + 1) → F) (δ : F), c.argsort (fun i => f i + δ) = c.argsort f) (δ : F) :
    FitsMap (· + δ) c where
  lt a b := add_lt_add_iff_right δ
  le a b := add_le_add_iff_right δ
  sort f := hsort f δ
  mean _ h0 fs hl := by
    have hc : (c.driftAverage : F) ≠ 0 := Nat.cast_ne_zero.2 h0
    have hs : ∀ l : List F, (l.map (· + δ)).sum = l.sum + (l.length : F) * δ := by
      intro l
      induction l with
      | nil => simp
      | cons a l ih => simp only [List.map_cons, List.sum_cons, ih, List.length_cons, Nat.cast_succ]; ring
    rw [← List.sum_eq_foldl, ← List.sum_eq_foldl, hs, hl]
    field_simp
  shift _ a b p := by ring

/-- **C93** (a uniform drift is compensated). Compare two searches at the moment when a compensation starts, with the same points and
known values: for the first one the objective has not changed (the best point measured again gives its known value), for the second one the
objective has drifted by `δ` everywhere, from now on. Then the second search makes exactly the calls of the first one for
ever after - the same points in the same order, the same moves, the same questions to the clock - with all figures of merit shifted by
`δ`. (The stopping criteria are asked with shifted values; the answers are those of the first search.) Needed from the sorting function:
adding the same number to all values does not change the order. -/
theorem C93_uniform_drift_compensated [CharZero K] {c : NmCfg K F n} (co : NmCoef K) (fuel : ℕ)
    (hsort : ∀ (f : Fin (n + 1) → F) (δ : F), c.argsort (fun i => f i + δ) = c.argsort f) (s : NmState K F n) (δ : F)
    {evs rest : List (Ev K (Vec K n) F)} {s1 : NmState K F n} {m : Strat K (Vec K n) F (NmState K F n)}
    (h : Plays (nmDriftDo c s) evs (.ret s1)) (hsame : ∀ x f, (x, f) ∈ evals evs → f = s.fsim 0)
    (hrest : Plays (nmFinish s1 >>= nmLoop c co fuel) rest m) :
    ∃ m', Plays (nmDriftDo c s >>= fun s => nmFinish s >>= nmLoop c co fuel) ((evs ++ rest).map (Ev.map id (· + δ))) m' := by
  obtain ⟨fs, t, r, h1, h0, h3, hs1⟩ := nmDriftDo_plays h
  obtain ⟨r', hr'⟩ : ∃ r' : F, r' = r := ⟨r, rfl⟩
  have hc : (c.driftAverage : F) ≠ 0 := Nat.cast_ne_zero.2 h0
  have hall : ∀ f ∈ fs, f = s.fsim 0 := by
    intro f hf
    refine hsame (s.sim 0) f ?_
    rw [h3, evals_append]
    refine List.mem_append_left _ ?_
    unfold evals measurements
    rw [List.filterMap_map]
    exact List.mem_filterMap.2 ⟨f, hf, rfl⟩
  have hrep : fs = List.replicate c.driftAverage (s.fsim 0) := List.eq_replicate_iff.2 ⟨h1, hall⟩
  have hmean : fs.foldl (· + ·) 0 / (c.driftAverage : F) = s.fsim 0 := by
    rw [← List.sum_eq_foldl, hrep, List.sum_replicate, nsmul_eq_mul]
    field_simp
  have hmean' : (fs.map (· + δ)).foldl (· + ·) 0 / (c.driftAverage : F) = s.fsim 0 + δ := by
    rw [← List.sum_eq_foldl, hrep, List.map_replicate, List.sum_replicate, nsmul_eq_mul]
    field_simp
  have key : ∀ (gs : List F) (acc : F) (sx : NmState K F n) (β : Type) (f : F × NmState K F n → Strat K (Vec K n) F β)
      (e2 : List (Ev K (Vec K n) F)) (m2 : Strat K (Vec K n) F β),
      Plays (f (gs.foldl (· + ·) acc, { sx with calls := sx.calls + gs.length })) e2 m2 →
      Plays (nmSum gs.length acc sx >>= f) (measurements (sx.sim 0) sx.iterations gs ++ e2) m2 := by
    intro gs
    induction gs with
    | nil => exact fun acc sx β f e2 m2 hp => hp
    | cons g gs ih =>
      intro acc sx β f e2 m2 hp
      refine .cons (.eval (sx.sim 0) sx.iterations) _ g _ _ (ih (acc + g) { sx with calls := sx.calls + 1 } β f e2 m2 ?_)
      rw [show ({ sx with calls := sx.calls + 1 } : NmState K F n).calls + gs.length = sx.calls + (g :: gs).length by
        show sx.calls + 1 + gs.length = _; rw [List.length_cons]; omega]
      exact hp
  -- the compensation of the drifted search
  have hcomp : Plays (nmDriftDo c s) (evs.map (Ev.map id (· + δ))) (.ret (s1.map id (· + δ))) := by
    have hk := key (fs.map (· + δ)) 0 s _ (fun p => if c.driftAverage = 0 then Strat.fail .zeroDivision else do
      let new := p.1 / (c.driftAverage : F)
      let fsim := fun i => if i = 0 then new else p.2.fsim i + (new - s.fsim 0)
      let t ← Strat.call .now
      let _ ← Strat.call (.drift (p.2.sim 0) p.2.iterations new)
      pure { p.2 with fsim := fsim, lastDrift := t, calls := p.2.calls + 1 })
      [⟨.now, t⟩, ⟨.drift (s.sim 0) s.iterations (s.fsim 0 + δ), r' + δ⟩] (.ret (s1.map id (· + δ))) (by
        rw [if_neg h0, hmean']
        refine Plays.cons .now _ t _ _ (Plays.cons (.drift (s.sim 0) s.iterations (s.fsim 0 + δ)) _ (r' + δ) _ _ ?_)
        have : s1.map id (· + δ) = { s with
            fsim := fun i => if i = 0 then s.fsim 0 + δ else s.fsim i + (s.fsim 0 + δ - s.fsim 0)
            lastDrift := t
            calls := s.calls + (fs.map (· + δ)).length + 1 } := by
          rw [hs1, hmean, List.length_map, h1]
          unfold NmState.map
          simp only [NmState.mk.injEq, and_true]
          refine ⟨rfl, funext fun i => ?_⟩
          show (if i = 0 then _ else _) + δ = _
          split <;> ring
        rw [this]
        exact .nil _)
    rw [List.length_map, h1] at hk
    have he : evs.map (Ev.map id (· + δ)) = measurements (s.sim 0) s.iterations (fs.map (· + δ)) ++
        [⟨.now, t⟩, ⟨.drift (s.sim 0) s.iterations (s.fsim 0 + δ), r' + δ⟩] := by
      rw [h3, List.map_append]
      congr 1
      · unfold measurements
        rw [List.map_map, List.map_map]
        rfl
      · subst hr'; rw [← hmean]; rfl
    rw [he]
    exact hk
  -- the rest
  have hT : Affine (id : Vec K n → Vec K n) := ⟨1, 0, fun x j => by simp⟩
  have hsim := (nmFinish_sim (T := id) (φ := (· + δ)) (S := Eq) (fun _ => rfl) s1).bind fun p q hq => by
    have := nmLoop_sim (S := Eq) hT (fun _ => rfl) (fits_shift hsort δ) co fuel p
    rw [← hq] at this
    exact this
  obtain ⟨m', hm', -⟩ := hsim.plays hrest
  refine ⟨m', ?_⟩
  rw [List.map_append]
  exact hcomp.bind hm'

end
section
variable {V C O : Type} [LE K] [DecidableLE K] [Field F] [LinearOrder F] [IsStrictOrderedRing F]
variable {cfg : AlgCfg K F} {env : Env V C F} {ops : CtlOps O V C}

theorem routine_xx {x : V} {it : ℕ} : Leads (fun s : AlgState V C O F => s.xx = some x) (fun s => s.xx = some x)
    (routineCall cfg env ops x it) := by
  intro s r s' hs he
  obtain ⟨o, ho⟩ := routine_step (ReproMean.triv (ops := ops)) trivial he
  rcases ho.xx with h | h
  · exact h.trans hs
  · exact h

theorem storeTest_xx {x : V} (i : ℕ) (f : F) : Leads (fun s : AlgState V C O F => s.xx = some x) (fun s => s.xx = some x)
    (storeTest i f) := by
  intro s
  exact During.storeTest (x := x) (s0 := s) (fun s s' _ _ _ h _ _ hs => h.trans hs) i f s

theorem inner_xx {x : V} {it : ℕ} : Leads (fun s : AlgState V C O F => s.xx = some x) (fun s => s.xx = some x)
    (innerCall cfg env ops x it) := by
  have hfin : ∀ last : F, Leads (fun s : AlgState V C O F => s.xx = some x) (fun s => s.xx = some x)
      (reEvalFinish cfg env last : Prog (AlgState V C O F) F) := by
    intro last s r s' hs he
    unfold reEvalFinish at he
    dsimp only at he
    split at he
    · rw [hs] at he
      cases he
      rfl
    · cases he
      exact hs
  have hloop : ∀ (ps : List F) (last : F) (i : ℕ), Leads (fun s : AlgState V C O F => s.xx = some x) (fun s => s.xx = some x)
      (reEvalLoop cfg env ops x it last i ps) := by
    intro ps
    induction ps with
    | nil => exact fun last i => hfin last
    | cons p ps ih =>
      intro last i
      unfold reEvalLoop
      refine .bind .get fun s => ?_
      dsimp only
      split
      · exact .pure _
      · exact .bind routine_xx fun f => .bind (storeTest_xx _ _) fun _ => ih _ _
  unfold innerCall
  refine .bind (.modify fun s hs => hs) fun _ => .bind routine_xx fun f => ?_
  split
  · exact .pure _
  · refine .bind .get fun s1 => .bind (.modify fun s hs => hs) fun _ => .bind (storeTest_xx _ _) fun _ => ?_
    split
    · intro s1 r s2 h1 h2; cases h2
    · exact hloop _ _ _

/-- an evaluation that reaches the user's function notes its point -/
theorem eval_xx (hk : cfg.kind ≠ .grape) {x : V} {it : ℕ} {s s' : AlgState V C O F} {r : F}
    (h : algHandler cfg env ops (.eval x it) s = (.ok r, s')) :
    (s.xx = some x → s'.xx = some x) ∧ (s'.log = s.log ∨ s'.xx = some x) := by
  simp only [algHandler] at h
  rw [if_neg hk] at h
  refine ⟨fun hs => inner_xx s r s' hs h, ?_⟩
  rcases hre : cfg.reEval with _ | steps
  · unfold innerCall at h
    rw [Prog.modify_bind, Prog.bind_apply] at h
    rcases hc : routineCall cfg env ops x it { s with isRecord := false, stepNumber := 0 } with ⟨e | f, s1⟩
    · rw [hc] at h; simp only [Prod.mk.injEq] at h; cases h.1
    · rw [hc] at h
      simp only [hre] at h
      cases h
      obtain ⟨o, ho⟩ := routine_step (s := { s with isRecord := false, stepNumber := 0 }) (ReproMean.triv (ops := ops)) trivial hc
      rcases o with _ | c
      · left; rw [ho.log]; simp [List.reduceOption]
      · exact .inr (ho.made c rfl).2.2
  · have hd := During.inner (ReproMean.triv (ops := ops)) (by rw [hre]; simp [hk]) trivial h
    obtain ⟨new, n1, _, n3⟩ := hd.log
    rcases new with _ | ⟨c, cs⟩
    · left; rw [n1]; simp
    · exact .inr (n3 (by simp))

/-- **C93, partial** (what is reported). If a run handles a compensation - measurements of a point, then the announcement of `v` - and at
least one of the measurements reached the user's function, then from then on `v` is the best figure of merit of the run, the point is the one
that is kept as the best, and `v` has been passed to the results dump as a record, with the controls of the last measurement. For every
configuration with or without re-evaluation. Missing: that all the measurements reached the user's function, which is violated
(`C93_interrupted_compensation_loses_best`). -/
theorem C93_announced_becomes_best_partial (hk : cfg.kind ≠ .grape) {x : V} {it : ℕ} {fs : List F} {t : ℚ} {v r : F}
    {s s' : AlgState V C O F}
    (h : Handled (algHandler cfg env ops) s (measurements x it fs ++ [⟨.now, t⟩, ⟨.drift x it v, r⟩]) s') (hm : s'.log ≠ s.log) :
    s'.bestFoM = v ∧ s'.bestXX = some x ∧ s'.isRecord = true ∧
      ∃ d, s'.dumps = d ++ [⟨s'.commCtl, true, v, s'.iter, s'.log.length⟩] := by
  have key : ∀ (fs : List F) (s s1 : AlgState V C O F), Handled (algHandler cfg env ops) s (measurements x it fs) s1 →
      (s.xx = some x → s1.xx = some x) ∧ (s1.log = s.log ∨ s1.xx = some x) := by
    intro fs
    induction fs with
    | nil =>
      rintro s s1 rfl
      exact ⟨id, .inl rfl⟩
    | cons f fs ih =>
      rintro s s1 ⟨s2, h1, h2⟩
      obtain ⟨a1, a2⟩ := eval_xx hk h1
      obtain ⟨b1, b2⟩ := ih s2 s1 h2
      refine ⟨fun hs => b1 (a1 hs), ?_⟩
      rcases b2 with b2 | b2
      · rcases a2 with a2 | a2
        · exact .inl (b2.trans a2)
        · exact .inr (b1 a2)
      · exact .inr b2
  obtain ⟨s1, h1, s2, h2, s3, h3, rfl⟩ := Handled.append.1 h
  obtain ⟨-, hx⟩ := key fs s s1 h1
  have e2 : s2.xx = s1.xx ∧ s2.log = s1.log := by
    simp only [algHandler] at h2
    unfold readClock at h2
    cases h2
    exact ⟨rfl, rfl⟩
  simp only [algHandler] at h3
  unfold innerDrift at h3
  dsimp only at h3
  rcases hxx : s2.xx with _ | y
  · rw [hxx] at h3; cases h3
  · rw [hxx] at h3
    cases h3
    have hxy : s1.xx = some x := hx.resolve_left fun hl => hm (show s2.log = s.log from e2.2.trans hl)
    have : y = x := by
      rw [e2.1, hxy] at hxx
      exact (Option.some.inj hxx).symm
    subst this
    exact ⟨rfl, rfl, rfl, _, rfl⟩

end

/-! ### A concrete run, used for the examples and the violation -/

/-- drift compensation after one minute, mean of two measurements -/
def driftNm : NmCfg ℚ ℚ 1 := { adaptive := false, driftMinutes := 1, driftAverage := 2, argsort := exArgsort1 }

/-- one parameter, start simplex `{0, 1}`; the control is the parameter -/
def driftOps : CtlOps Unit (Vec ℚ 1) ℚ :=
  { getControls := fun _ x => .ok ((), x 0), mean := fun _ => .ok ![0], sigma := fun _ => .ok ![1]
    updateBase := fun _ _ => .ok (), selectBasis := fun _ _ => .ok (), simplex := fun _ _ _ => .ok [![0], ![1]] }

/-- the answers `fs` one after the other; a minute passes at every look at the clock -/
def driftEnv (fs : List ℚ) : Env (Vec ℚ 1) ℚ ℚ :=
  { getFoM := fun h _ => exAns fs h.length, async := fun _ => .none, clock := fun n => n, sqrt := id, cdf := id }

/-- a direct search with Nelder-Mead and at most `m` evaluations -/
def driftRun (m : ℤ) (fs : List ℚ) : Py Unit × AlgState (Vec ℚ 1) ℚ Unit ℚ :=
  execute (exCfg .directSearch m false none none) (driftEnv fs) driftOps (nelderMead driftNm 5) ()

set_option synthInstance.maxSize 1000 in
/-- A run with a compensation: values 5 and 4 at the start, nothing better at 2, 1/2 and again 1/2; then the best control 1 is measured twice
more with 8 and 9, and 17/2 is reported as the (new) best figure of merit. -/
example : (driftRun 7 [5, 4, 6, 7, 4, 8, 9]).2.dumps.map (fun d => (d.ctl, d.isRecord, d.fom)) =
    [(some 0, true, 5), (some 1, true, 4), (some 2, false, 6), (some (1 / 2), false, 7), (some (1 / 2), false, 4),
      (some 1, false, 8), (some 1, false, 9), (some 1, true, 17 / 2)] ∧
    (driftRun 7 [5, 4, 6, 7, 4, 8, 9]).2.bestFoM = 17 / 2 ∧ (driftRun 7 [5, 4, 6, 7, 4, 8, 9]).2.bestXX.map (· 0) = some 1 := by
  decide +kernel

set_option synthInstance.maxSize 1000 in
/-- **C93 is violated when the run ends during a compensation**: Violation found: a run with at most four evaluations measures 5, 4, 3 and 2. The
compensation that is then due is not skipped although the budget is used up; its two measurements are refused, the placeholder 1e10 is
taken for their values, and 1e10 is announced, reported as a record and kept as the best figure of merit of the run. -/
theorem C93_interrupted_compensation_loses_best :
    (driftRun 4 [5, 4, 3, 2]).2.log.map (fun c => (c.ctl, c.value)) = [(0, some 5), (1, some 4), (2, some 3), (3, some 2)] ∧
    (driftRun 4 [5, 4, 3, 2]).2.dumps.map (fun d => (d.ctl, d.isRecord, d.fom)) =
      [(some 0, true, 5), (some 1, true, 4), (some 2, true, 3), (some 3, true, 2), (some 3, true, 10 ^ 10)] ∧
    (driftRun 4 [5, 4, 3, 2]).2.bestFoM = 10 ^ 10 ∧ (driftRun 4 [5, 4, 3, 2]).1 = .ok () := by decide +kernel

/-- a search at the moment when a compensation starts: rows 1 and 0 with values 4 and 5 -/
def driftState : NmState ℚ ℚ 1 := { sim := ![![1], ![0]], fsim := ![4, 5], calls := 4, iterations := 1, lastDrift := 0 }

/-- The hypotheses of `C93_values_follow` and `C93_uniform_drift_compensated` are met: the best row is measured twice with its known value 4. -/
example : ∃ s1, Plays (nmDriftDo driftNm driftState)
    [⟨.eval ![1] 1, (4 : ℚ)⟩, ⟨.eval ![1] 1, (4 : ℚ)⟩, ⟨.now, 7⟩, ⟨.drift ![1] 1 ((0 + 4 + 4) / ((2 : ℕ) : ℚ)), (4 : ℚ)⟩] (.ret s1) :=
  ⟨_, .cons _ _ _ _ _ (.cons _ _ _ _ _ (.cons _ _ _ _ _ (.cons _ _ _ _ _ (.nil _))))⟩

example (f : Fin 2 → ℚ) (δ : ℚ) : exArgsort1 (fun i => f i + δ) = exArgsort1 f := by
  unfold exArgsort1
  simp only [add_lt_add_iff_right]

/-- ... and the search that has drifted by 10 goes on in the same way: the next point is the same. -/
example : ∃ m', Plays (nmDriftDo driftNm driftState >>= fun s => nmFinish s >>= nmLoop driftNm (nmCoef false 1) 3)
    ([⟨.eval ![1] 1, (4 : ℚ)⟩, ⟨.eval ![1] 1, (4 : ℚ)⟩, ⟨.now, 7⟩, ⟨.drift ![1] 1 ((0 + 4 + 4) / ((2 : ℕ) : ℚ)), (4 : ℚ)⟩].map
      (Ev.map id (· + 10))) m' := by
  have h := C93_uniform_drift_compensated (c := driftNm) (nmCoef false 1) 3 (fun f δ => by
      show exArgsort1 (fun i => f i + δ) = exArgsort1 f
      unfold exArgsort1
      simp only [add_lt_add_iff_right]) driftState 10
    (evs := [⟨.eval ![1] 1, (4 : ℚ)⟩, ⟨.eval ![1] 1, (4 : ℚ)⟩, ⟨.now, 7⟩, ⟨.drift ![1] 1 ((0 + 4 + 4) / ((2 : ℕ) : ℚ)), (4 : ℚ)⟩])
    (.cons _ _ _ _ _ (.cons _ _ _ _ _ (.cons _ _ _ _ _ (.cons _ _ _ _ _ (.nil _)))))
    (fun x f hf => by
      simp only [evals, List.filterMap_cons, Ev.evaluated, List.filterMap_nil, List.mem_cons, Prod.mk.injEq, List.not_mem_nil, or_false,
        or_self] at hf
      exact hf.2) (.nil _)
  simpa using h

/-- does the call announce the value 4? -/
def announces4 : Ev ℚ (Vec ℚ 1) ℚ → Bool
  | ⟨.drift x it v, _⟩ => v == 4 && x 0 == 1 / 2
  | _ => false

/-- The hypotheses of `C93_announcement` are met: start values 5 and 4, reflection with 6, inside contraction to 1/2 with 3; then 1/2
is measured with 2 and 6, and 4 is announced. -/
example : ∃ evs a pre post x it v r, Plays (nmRun driftNm 5 exSim) evs (.ret a) ∧ evs = pre ++ ⟨.drift x it v, r⟩ :: post ∧
    v = 4 ∧ x 0 = 1 / 2 := by
  have h : ((nmRun driftNm 5 exSim).play [.inl 5, .inl 4, .inr false, .inl 6, .inr false, .inl 3, .inr false, .inl 2, .inl 6, .inl 4,
      .inr true, .inr true]).map (fun p => p.1.any announces4) = some true := by decide +kernel
  obtain ⟨evs, a, h1, h2⟩ := play_facts h
  obtain ⟨e, he, h3⟩ := List.any_eq_true.1 h2
  obtain ⟨pre, post, h4⟩ := List.append_of_mem he
  obtain ⟨o, r⟩ := e
  cases o with
  | drift x it v =>
    simp only [announces4, Bool.and_eq_true, beq_iff_eq] at h3
    exact ⟨evs, a, pre, post, x, it, v, r, h1, h4, h3.1, h3.2⟩
  | _ => cases h3

end QuOCS

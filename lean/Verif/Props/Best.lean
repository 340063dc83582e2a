/-
Best figure of merit, records and dumped controls: C04, C05, C07 (dump), C10.
-/
import Verif.Props.Records

set_option linter.unusedSectionVars false

namespace QuOCS

variable {K V C O F : Type} [LE K] [DecidableLE K]
variable [Add F] [Sub F] [Mul F] [Div F] [Neg F] [Zero F] [One F] [NatCast F] [LE F] [LT F] [DecidableLE F]
  [DecidableLT F] [FloatOrder F]
variable (cfg : AlgCfg K F) (env : Env V C F) (ops : CtlOps O V C)

open FloatOrder

/-! ### C04 -/

/-- **C04, partial.** Without re-evaluation and drift compensation, the reported figure of merit of a run is the initial
value (1e10 for minimization, -1e10 for maximization) or was returned by the user's function, and neither the initial
value nor any returned figure of merit is better. Holds also when `NaN` is returned.
Missing: figures of merit returned together with a non-zero status code take part, see
`C04_failed_evaluation_becomes_best`; for runs without such an answer this is the whole property. -/
theorem C04_best_is_optimum_partial (hre : NoReEval cfg) (hmax : ¬ IsNaN cfg.fomMax) (dsm : Dsm K V F)
    (hdr : NoDriftRun cfg dsm) (o : O) :
    (∀ c ∈ (execute cfg env ops dsm o).2.log, ∀ f, c.value = some f →
      ¬ Better cfg.maximize f (finalFoM cfg (execute cfg env ops dsm o).2)) ∧
    ¬ Better cfg.maximize (dirMul cfg.maximize cfg.fomMax) (finalFoM cfg (execute cfg env ops dsm o).2) ∧
    (finalFoM cfg (execute cfg env ops dsm o).2 = dirMul cfg.maximize cfg.fomMax ∨
      ∃ c ∈ (execute cfg env ops dsm o).2.log, c.value = some (finalFoM cfg (execute cfg env ops dsm o).2)) := by
  have h : BestInv cfg (execute cfg env ops dsm o).2 :=
    (execute_inv (cfg := cfg) (env := env) (ops := ops) (d := false) (BestInv cfg) (BestInv cfg) dsm o (.inr hdr.2)
      (.initial env o hmax) (fun s s' ha hs => hs.step (ha.simple hre hdr.1))
      (fun s s' ha hs => hs.step (ha.simple hre hdr.1)) (fun _ h => h)).1
  unfold finalFoM
  refine ⟨fun c hc f hf => ?_, ?_, ?_⟩
  · rw [← dirMul_lt, dirMul_dirMul]; exact h.le c hc f hf
  · rw [← dirMul_lt, dirMul_dirMul, dirMul_dirMul]; exact h.init
  · refine h.mem.imp (fun h => by rw [h]) ?_
    rintro ⟨c, hc, f, hf, hb⟩
    exact ⟨c, hc, by rw [hb, dirMul_dirMul]; exact hf⟩

/-- A maximization with ties whose best value is 6, in a type with `NaN` one with a `NaN` answer. -/
example : finalFoM (exCfg .dcrab 100 true none none) (execute (exCfg .dcrab 100 true none none)
    (exEnv (exAns [5, 6, 4, 6]) (fun _ => .none)) exOps (exDsm [1, 2, 3, 4]) ()).2 = 6 := by decide +kernel

/-- settings over numbers with `NaN` -/
def nanCfg : AlgCfg ℚ QNaN :=
  { kind := .dcrab, maxEvalTotal := 100, totalTimeLim := 10 ^ 10, maximize := false, userGoal := none
    fomMax := .num (10 ^ 10), initStd := .num (1 / 10), reEval := none, half := .num (1 / 2), tiny := .num 0
    driftAfterSI := false, driftMinutes := 0, driftAverage := 1, maxSI := 1
    sc := { maxEval := 1000, timeLim := 1000, xatol := 0, fatol := 0, cbsEvals := 1, cbsChange := 0 } }

/-- the answers 5, NaN, 3, 3 -/
def nanEnv : Env ℚ ℚ QNaN :=
  { getFoM := fun h _ => .ok ⟨[QNaN.num 5, .nan, .num 3, .num 3][h.length]?, none, none⟩
    async := fun _ => .none, clock := fun n => n, sqrt := id, cdf := id }

example : NoReEval nanCfg ∧ ¬ IsNaN nanCfg.fomMax ∧
    (execute nanCfg nanEnv exOps (fun _ x0 _ _ => evalPoints x0 (.num 0) [1, 2, 3, 4] 0) ()).2.bestFoM = .num 3 ∧
    (execute nanCfg nanEnv exOps (fun _ x0 _ _ => evalPoints x0 (.num 0) [1, 2, 3, 4] 0) ()).2.dumps.map
      (fun d => d.isRecord) = [true, false, true, false] :=
  ⟨.inr rfl, fun h => QNaN.noConfusion h, by decide +kernel, by decide +kernel⟩

/-- **C04.** Without re-evaluation and drift compensation the best figure of merit never gets worse, whatever a search
method does from whatever state on. -/
theorem C04_best_never_worse (hre : NoReEval cfg) (hdr : cfg.driftAfterSI = false) {α : Type} (search : Strat K V F α)
    (hnd : search.NoDrift) (s : AlgState V C O F) :
    ¬ Better cfg.maximize (finalFoM cfg s) (finalFoM cfg (search.interp (algHandler cfg env ops) s).2) := by
  have h := (Traced.interp (cfg := cfg) (env := env) (ops := ops) (d := false) search (.inr hnd)).inv
    (fun s' => ¬ s.bestFoM < s'.bestFoM) ?_ s (FloatOrder.lt_irrefl _)
  · unfold finalFoM
    rw [← dirMul_lt, dirMul_dirMul, dirMul_dirMul]
    exact h
  · intro b s1 s2 ha hs
    cases ha.simple hre hdr with
    | still _ hb _ _ _ => rw [hb]; exact hs
    | raised c _ _ _ hb _ _ _ => rw [hb]; exact hs
    | answered x c a f p t i _ _ _ hb _ _ _ _ _ _ =>
      rw [hb]
      split
      · rename_i hlt
        exact fun h => hs (FloatOrder.lt_trans _ _ _ h hlt)
      · exact hs

/-- **C04 is violated by failed evaluations**: here the only successful answer is 5, the second evaluation fails with
status code -1 and figure of merit 1, and the run reports 1. -/
theorem C04_failed_evaluation_becomes_best : ∃ (cfg : AlgCfg ℚ ℚ) (env : Env ℚ ℚ ℚ) (dsm : Dsm ℚ ℚ ℚ),
    NoReEval cfg ∧ NoDriftRun cfg dsm ∧ finalFoM cfg (execute cfg env exOps dsm ()).2 = 1 ∧
    (execute cfg env exOps dsm ()).2.log.map (fun c => (c.value, match c.ans with | .ok a => a.status | .error _ => none))
      = [(some 5, none), (some 1, some (-1))] :=
  ⟨exCfg .dcrab 100 false none none,
    exEnv (fun n => if n = 1 then .ok ⟨some 1, none, some (-1)⟩ else .ok ⟨some 5, none, none⟩) (fun _ => .none),
    exDsm [1, 2, 3], .inr rfl, ⟨rfl, fun i x sim sg => by simp [exDsm, evalPoints, Strat.NoDrift]⟩, by decide +kernel,
    by decide +kernel⟩

/-- **Drift compensation can lose the best figure of merit**: the measurement that should renew the best value after a
super-iteration is refused because the budget is used up, and the placeholder 1e10 becomes the reported best. -/
theorem C04_drift_compensation_loses_best : ∃ (cfg : AlgCfg ℚ ℚ) (env : Env ℚ ℚ ℚ) (dsm : Dsm ℚ ℚ ℚ),
    NoReEval cfg ∧ cfg.driftAfterSI = true ∧ finalFoM cfg (execute cfg env exOps dsm ()).2 = 10 ^ 10 ∧
    (execute cfg env exOps dsm ()).2.log.map (fun c => c.value) = [some 5, some 4] :=
  ⟨{ exCfg .dcrab 2 false none none with driftAfterSI := true }, exEnv (exAns [5, 4, 3, 2]) (fun _ => .none),
    exDsm [1, 2], .inr rfl, rfl, by decide +kernel, by decide +kernel⟩

/-! ### C05 -/

/-- What a report says about the call it belongs to. -/
def ReportOK (cfg : AlgCfg K F) (log : List (Call V C F)) (r : DumpCall C F) : Prop :=
  ∃ before c after f, log = before ++ c :: after ∧ r.calls = before.length + 1 ∧ c.Succeeded ∧ c.value = some f ∧
    r.ctl = some c.ctl ∧ r.fom = dirMul cfg.maximize f ∧
    (r.isRecord = true ↔ Better cfg.maximize f (dirMul cfg.maximize cfg.fomMax) ∧
      ∀ c' ∈ before, ∀ g, c'.value = some g → ¬ IsNaN g → Better cfg.maximize f g)

theorem ReportOK.append {cfg : AlgCfg K F} {log : List (Call V C F)} {r : DumpCall C F} (h : ReportOK cfg log r)
    (c' : Call V C F) : ReportOK cfg (log ++ [c']) r := by
  obtain ⟨before, c, after, f, hl, h⟩ := h
  exact ⟨before, c, after ++ [c'], f, by rw [hl]; simp, h⟩

/-- invariant for reports -/
structure RepInv (cfg : AlgCfg K F) (s : AlgState V C O F) : Prop where
  best : BestInv cfg s
  max : ¬ IsNaN cfg.fomMax
  ok : ∀ r ∈ s.dumps, ReportOK cfg s.log r
  sorted : (s.dumps.map (fun r => r.calls)).Pairwise (· < ·)
  le : ∀ r ∈ s.dumps, r.calls ≤ s.log.length
  all : ∀ before c after, s.log = before ++ c :: after → c.Succeeded → ∃ r ∈ s.dumps, r.calls = before.length + 1
  file : ∀ ds, ds <+: s.dumps → (∀ r ∈ ds, ∀ d, bestFile ds = some d → ¬ r.fom < d.fom) ∧
    (∀ d, bestFile ds = some d → d ∈ ds ∧ d.isRecord = true) ∧
    (bestFile ds = none → ∀ r ∈ ds, ¬ r.fom < cfg.fomMax)
  cur : s.running = true → s.bestFoM = (match bestFile s.dumps with | some d => d.fom | none => cfg.fomMax)

theorem bestFile_concat (ds : List (DumpCall C F)) (r : DumpCall C F) :
    bestFile (ds ++ [r]) = if r.isRecord then some r else bestFile ds := by
  unfold bestFile
  rw [List.foldl_append]
  rfl

theorem prefix_concat {α : Type} {l ds : List α} {a : α} (h : ds <+: l ++ [a]) : ds <+: l ∨ ds = l ++ [a] := by
  rcases List.prefix_concat_iff.1 h with h | h
  · exact .inr h
  · exact .inl h

theorem append_cons_last {α : Type} {l before after : List α} {a c : α} (h : l ++ [a] = before ++ c :: after) :
    (after = [] ∧ before = l ∧ c = a) ∨ ∃ after', l = before ++ c :: after' := by
  rcases List.eq_nil_or_concat after with rfl | ⟨after', z, rfl⟩
  · left
    have := List.append_inj' h rfl
    exact ⟨rfl, this.1.symm, by simpa using this.2.symm⟩
  · right
    refine ⟨after', ?_⟩
    rw [List.concat_eq_append, ← List.cons_append, ← List.append_assoc] at h
    exact (List.append_inj' h rfl).1

theorem RepInv.step {cfg : AlgCfg K F} {env : Env V C F} {b : Bool} {s s' : AlgState V C O F}
    (h : SimpleEff cfg env b s s') (hs : RepInv cfg s) :
    (b = true → RepInv cfg s') ∧ (b = false → BestInv cfg s' ∧ (∀ r ∈ s'.dumps, ReportOK cfg s'.log r) ∧
      (s'.dumps.map (fun r => r.calls)).Pairwise (· < ·) ∧
      (∀ before c after, s'.log = before ++ c :: after → c.Succeeded → ∃ r ∈ s'.dumps, r.calls = before.length + 1) ∧
      s'.dumps = s.dumps) := by
  have hb' := hs.best.step h
  cases h with
  | still hl hb hd hr hp =>
    have : RepInv cfg s' := by
      refine ⟨hb', hs.max, ?_, ?_, ?_, ?_, ?_, ?_⟩
      · rw [hl, hd]; exact hs.ok
      · rw [hd]; exact hs.sorted
      · rw [hl, hd]; exact hs.le
      · rw [hl, hd]; exact hs.all
      · rw [hd]; exact hs.file
      · rw [hb, hd]
        intro h
        refine hs.cur ?_
        by_contra hf
        rw [hr (by simpa using hf)] at h
        cases h
    exact ⟨fun _ => this, fun _ => ⟨this.best, this.ok, this.sorted, this.all, hd⟩⟩
  | raised c hl hc hbf hb hd hr hg =>
    refine ⟨fun h => (by rw [hbf] at h; cases h), fun _ => ⟨hb', ?_, ?_, ?_, hd⟩⟩
    · rw [hl, hd]; exact fun r hr => (hs.ok r hr).append c
    · rw [hd]; exact hs.sorted
    · rw [hl, hd]
      intro before c' after h hsu
      rcases append_cons_last h with ⟨rfl, rfl, rfl⟩ | ⟨after', h⟩
      · obtain ⟨a, f, h1, h2, _⟩ := hsu
        have : c'.value = some f := by unfold Call.value; rw [h1]; exact h2
        rw [hc] at this; cases this
      · exact hs.all before c' after' h hsu
  | answered x c a f p t i hf hbt hl hb hd hr hr' hg hp hi =>
    have hval : (⟨x, c, .ok a, p, t⟩ : Call V C F).value = some f := hf
    refine ⟨fun _ => ?_, fun h => (by rw [hbt] at h; cases h)⟩
    by_cases hst : a.status.getD 0 = 0
    · rw [if_pos hst] at hd
      have hsucc : (⟨x, c, .ok a, p, t⟩ : Call V C F).Succeeded := ⟨a, f, rfl, hf, hst⟩
      have hcur := hs.cur hr
      refine ⟨hb', hs.max, ?_, ?_, ?_, ?_, ?_, ?_⟩
      · intro r hr'
        rw [hd, List.mem_append, List.mem_singleton] at hr'
        rw [hl]
        rcases hr' with h | rfl
        · exact (hs.ok r h).append _
        · refine ⟨s.log, _, [], f, rfl, rfl, hsucc, hval, rfl, rfl, ?_⟩
          rw [decide_eq_true_eq]
          constructor
          · intro hlt
            refine ⟨?_, fun c' hc' g hg' hng => ?_⟩
            · rw [← dirMul_lt, dirMul_dirMul]
              by_contra hn
              exact FloatOrder.not_lt_trans _ _ _ hs.max hn hs.best.init hlt
            · rw [← dirMul_lt]
              by_contra hn
              exact FloatOrder.not_lt_trans _ _ _ (by rw [dirMul_nan]; exact hng) hn (hs.best.le c' hc' g hg') hlt
          · rintro ⟨h1, h2⟩
            rcases hs.best.mem with hm | ⟨c', hc', g, hg', hm⟩
            · rw [hm]; rw [← dirMul_lt, dirMul_dirMul] at h1; exact h1
            · have hng : ¬ IsNaN g := by
                have := hs.best.num; rw [hm, dirMul_nan] at this; exact this
              rw [hm, dirMul_lt]; exact h2 c' hc' g hg' hng
      · rw [hd, List.map_append, List.pairwise_append]
        refine ⟨hs.sorted, List.pairwise_singleton _ _, ?_⟩
        intro n hn m hm
        obtain ⟨r, hr1, rfl⟩ := List.mem_map.1 hn
        simp only [List.map_cons, List.map_nil, List.mem_singleton] at hm
        have := hs.le r hr1
        omega
      · intro r hr1
        rw [hd, List.mem_append, List.mem_singleton] at hr1
        rw [hl, List.length_append, List.length_singleton]
        rcases hr1 with h | rfl
        · have := hs.le r h; omega
        · exact le_rfl
      · rw [hl, hd]
        intro before c' after h hsu
        rcases append_cons_last h with ⟨rfl, rfl, rfl⟩ | ⟨after', h⟩
        · exact ⟨_, List.mem_append_right _ (List.mem_singleton_self _), rfl⟩
        · obtain ⟨r, h1, h2⟩ := hs.all before c' after' h hsu
          exact ⟨r, List.mem_append_left _ h1, h2⟩
      · intro ds hds
        rw [hd] at hds
        rcases prefix_concat hds with h | rfl
        · exact hs.file ds h
        · obtain ⟨f1, f2, f3⟩ := hs.file s.dumps (List.prefix_rfl)
          rw [bestFile_concat]
          by_cases hlt : dirMul cfg.maximize f < s.bestFoM
          · simp only [hlt, decide_true, if_true]
            refine ⟨?_, ?_, fun h => by cases h⟩
            · intro r hr1 d hd1
              cases hd1
              rw [List.mem_append, List.mem_singleton] at hr1
              rcases hr1 with h | rfl
              · dsimp only
                intro hlt'
                have hlt2 := FloatOrder.lt_trans _ _ _ hlt' hlt
                rw [hcur] at hlt2
                rcases hbf : bestFile s.dumps with _ | d
                · rw [hbf] at hlt2
                  exact f3 hbf r h hlt2
                · rw [hbf] at hlt2
                  exact f1 r h d hbf hlt2
              · exact FloatOrder.lt_irrefl _
            · intro d hd1
              cases hd1
              exact ⟨List.mem_append_right _ (List.mem_singleton_self _), rfl⟩
          · simp only [hlt, decide_false]
            refine ⟨?_, ?_, ?_⟩
            · intro r hr1 d hd1
              have hd1 : bestFile s.dumps = some d := hd1
              rw [List.mem_append, List.mem_singleton] at hr1
              rcases hr1 with h | rfl
              · exact f1 r h d hd1
              · rw [hcur, hd1] at hlt; exact hlt
            · intro d hd1
              obtain ⟨g1, g2⟩ := f2 d hd1
              exact ⟨List.mem_append_left _ g1, g2⟩
            · intro hd1 r hr1
              have hd1 : bestFile s.dumps = none := hd1
              rw [List.mem_append, List.mem_singleton] at hr1
              rcases hr1 with h | rfl
              · exact f3 hd1 r h
              · rw [hcur, hd1] at hlt; exact hlt
      · intro _
        rw [hd, bestFile_concat, hb]
        by_cases hlt : dirMul cfg.maximize f < s.bestFoM
        · simp only [hlt, decide_true, if_true]
        · simp only [hlt, decide_false, if_false]; exact hcur
    · rw [if_neg hst] at hd
      refine ⟨hb', hs.max, ?_, ?_, ?_, ?_, ?_, ?_⟩
      · rw [hl, hd]; exact fun r hr => (hs.ok r hr).append _
      · rw [hd]; exact hs.sorted
      · rw [hl, hd, List.length_append]; exact fun r hr => (hs.le r hr).trans (Nat.le_add_right _ _)
      · rw [hl, hd]
        intro before c' after h hsu
        rcases append_cons_last h with ⟨rfl, rfl, rfl⟩ | ⟨after', h⟩
        · obtain ⟨a', f', h1, _, h3⟩ := hsu
          cases h1
          exact absurd h3 hst
        · exact hs.all before c' after' h hsu
      · rw [hd]; exact hs.file
      · intro h
        rw [hr'] at h
        simp [hst] at h

/-- what remains true of reports when a program ends with an exception -/
structure RepEnd (cfg : AlgCfg K F) (s : AlgState V C O F) : Prop where
  ok : ∀ r ∈ s.dumps, ReportOK cfg s.log r
  sorted : (s.dumps.map (fun r => r.calls)).Pairwise (· < ·)
  all : ∀ before c after, s.log = before ++ c :: after → c.Succeeded → ∃ r ∈ s.dumps, r.calls = before.length + 1
  file : ∀ ds, ds <+: s.dumps → (∀ r ∈ ds, ∀ d, bestFile ds = some d → ¬ r.fom < d.fom) ∧
    (∀ d, bestFile ds = some d → d ∈ ds ∧ d.isRecord = true) ∧
    (bestFile ds = none → ∀ r ∈ ds, ¬ r.fom < cfg.fomMax)

theorem reports (hre : NoReEval cfg) (hmax : ¬ IsNaN cfg.fomMax) (dsm : Dsm K V F) (hdr : NoDriftRun cfg dsm) (o : O) :
    RepEnd cfg (execute cfg env ops dsm o).2 := by
  refine (execute_inv (cfg := cfg) (env := env) (ops := ops) (d := false) (RepInv cfg) (RepEnd cfg) dsm o (.inr hdr.2)
    ?_ (fun s s' ha hs => (hs.step (ha.simple hre hdr.1)).1 rfl) (fun s s' ha hs => ?_)
    (fun _ h => ⟨h.ok, h.sorted, h.all, h.file⟩)).1
  · refine ⟨.initial env o hmax, hmax, by simp [initState], by simp [initState], by simp [initState],
      by simp [initState], ?_, fun _ => rfl⟩
    intro ds hds
    rw [show (initState cfg env o).dumps = [] from rfl, List.prefix_nil] at hds
    subst hds
    exact ⟨fun r hr => (by cases hr), fun d hd => (by cases hd), fun _ r hr => (by cases hr)⟩
  · obtain ⟨_, h1, h2, h3, h4⟩ := (hs.step (ha.simple hre hdr.1)).2 rfl
    exact ⟨h1, h2, h3, h4 ▸ hs.file⟩

/-- **C05.** Without re-evaluation and drift compensation: every report to the results dump belongs to a successful
evaluation, carries its controls and its figure of merit (internal sign: negated for maximization), and is flagged as a
record exactly if the figure of merit is strictly better than the initial value and than every figure of merit (that is
a number) answered before. -/
theorem C05_record_iff_strict_improvement (hre : NoReEval cfg) (hmax : ¬ IsNaN cfg.fomMax) (dsm : Dsm K V F)
    (hdr : NoDriftRun cfg dsm) (o : O) :
    ∀ r ∈ (execute cfg env ops dsm o).2.dumps, ∃ before c after f,
      (execute cfg env ops dsm o).2.log = before ++ c :: after ∧ r.calls = before.length + 1 ∧
      c.Succeeded ∧ c.value = some f ∧ r.ctl = some c.ctl ∧ r.fom = (if cfg.maximize then -f else f) ∧
      (r.isRecord = true ↔ Better cfg.maximize f (if cfg.maximize then -cfg.fomMax else cfg.fomMax) ∧
        ∀ c' ∈ before, ∀ g, c'.value = some g → ¬ IsNaN g → Better cfg.maximize f g) :=
  (reports cfg env ops hre hmax dsm hdr o).ok

/-- **C05.** Every successful evaluation is reported exactly once, in order. -/
theorem C05_every_success_reported_once (hre : NoReEval cfg) (hmax : ¬ IsNaN cfg.fomMax) (dsm : Dsm K V F)
    (hdr : NoDriftRun cfg dsm) (o : O) :
    ((execute cfg env ops dsm o).2.dumps.map (fun r => r.calls)).Pairwise (· < ·) ∧
    ∀ before c after, (execute cfg env ops dsm o).2.log = before ++ c :: after → c.Succeeded →
      ∃ r ∈ (execute cfg env ops dsm o).2.dumps, r.calls = before.length + 1 :=
  ⟨(reports cfg env ops hre hmax dsm hdr o).sorted, (reports cfg env ops hre hmax dsm hdr o).all⟩

/-- **C05.** Ties and `NaN` never count as a record. -/
theorem C05_tie_and_nan_no_record (hre : NoReEval cfg) (hmax : ¬ IsNaN cfg.fomMax) (dsm : Dsm K V F)
    (hdr : NoDriftRun cfg dsm) (o : O) (r : DumpCall C F) (hr : r ∈ (execute cfg env ops dsm o).2.dumps)
    (before after : List (Call V C F)) (c : Call V C F) (f : F)
    (hl : (execute cfg env ops dsm o).2.log = before ++ c :: after) (hc : r.calls = before.length + 1)
    (hv : c.value = some f) (h : IsNaN f ∨ ∃ c' ∈ before, c'.value = some f) : r.isRecord = false := by
  obtain ⟨before', c2, after', f', hl', hc', _, hv', _, _, hrec⟩ :=
    C05_record_iff_strict_improvement cfg env ops hre hmax dsm hdr o r hr
  have hlen : before'.length = before.length := by omega
  have := List.append_inj (hl'.symm.trans hl) hlen
  obtain ⟨rfl, h2⟩ := this
  cases h2
  rw [hv] at hv'
  cases hv'
  by_contra hne
  have hrec := hrec.1 (by simpa using hne)
  have hn : ¬ IsNaN f := by
    have := hrec.1
    unfold Better at this
    split at this
    · exact (FloatOrder.lt_num _ _ this).2
    · exact (FloatOrder.lt_num _ _ this).1
  rcases h with h | ⟨c', h1, h2⟩
  · exact hn h
  · have := hrec.2 c' h1 f h2 hn
    unfold Better at this
    split at this <;> exact FloatOrder.lt_irrefl _ this

/-- The run above (answers 5, NaN, 3, 3) has four reports, at calls 1 to 4, two of them records. -/
example : (execute nanCfg nanEnv exOps (fun _ x0 _ _ => evalPoints x0 (.num 0) [1, 2, 3, 4] 0) ()).2.dumps.map
    (fun r => (r.calls, r.isRecord)) = [(1, true), (2, false), (3, true), (4, false)] := by decide +kernel

example : NoDriftRun nanCfg (fun _ x0 _ _ => evalPoints x0 (.num 0) [1, 2, 3, 4] 0) :=
  ⟨rfl, fun i x sim sg => by simp [evalPoints, Strat.NoDrift]⟩

/-! ### C07: failed evaluations and the results dump -/

/-- **C07, partial.** Without re-evaluation and drift compensation no failed evaluation is passed to the results dump.
Missing: with re-evaluation it is not true, see `C07_failed_reevaluation_is_dumped`. -/
theorem C07_failed_not_dumped_partial (hre : NoReEval cfg) (hmax : ¬ IsNaN cfg.fomMax) (dsm : Dsm K V F)
    (hdr : NoDriftRun cfg dsm) (o : O) (before after : List (Call V C F)) (c : Call V C F)
    (hl : (execute cfg env ops dsm o).2.log = before ++ c :: after) (hc : ¬ c.Succeeded) :
    ∀ r ∈ (execute cfg env ops dsm o).2.dumps, r.calls ≠ before.length + 1 := by
  intro r hr h
  obtain ⟨before', c2, after', f', hl', hc', hs, _⟩ :=
    C05_record_iff_strict_improvement cfg env ops hre hmax dsm hdr o r hr
  have hlen : before'.length = before.length := by omega
  obtain ⟨rfl, h2⟩ := List.append_inj (hl'.symm.trans hl) hlen
  cases h2
  exact hc hs

/-- A run whose second evaluation fails: only the first is reported. -/
example : (execute (exCfg .dcrab 100 false none none)
    (exEnv (fun n => if n = 1 then .ok ⟨some 1, none, some (-1)⟩ else .ok ⟨some 5, none, none⟩) (fun _ => .none))
    exOps (exDsm [1, 2, 3]) ()).2.dumps.map (fun r => r.calls) = [1] := by decide +kernel

/-- **C07 is violated with re-evaluation**: the second call (a re-evaluation) fails, and yet the results dump is told that
it is a record. -/
theorem C07_failed_reevaluation_is_dumped : ∃ (cfg : AlgCfg ℚ ℚ) (env : Env ℚ ℚ ℚ) (dsm : Dsm ℚ ℚ ℚ),
    (execute cfg env exOps dsm ()).2.log.map (fun c => match c.ans with | .ok a => a.status | .error _ => none)
      = [some 0, some (-1)] ∧
    (execute cfg env exOps dsm ()).2.dumps.map (fun r => (r.calls, r.isRecord, r.fom)) = [(1, false, 5), (2, true, 3)] :=
  ⟨exCfg .dcrab 100 false none (some [1 / 2]),
    exEnv (fun n => if n = 1 then .ok ⟨some 1, none, some (-1)⟩ else .ok ⟨some 5, none, some 0⟩) (fun _ => .none),
    exDsm [1, 2, 3], by decide +kernel, by decide +kernel⟩

/-! ### C10 -/

/-- **C10.** Without re-evaluation and drift compensation, at every moment of the run (after any number of reports) the
best-controls file contains the controls and the figure of merit of a successful evaluation, and no report so far has a
better one; while there is no file, no report was better than the initial value. The file changes on records only (see
`bestFile`). -/
theorem C10_best_file_is_best_partial (hre : NoReEval cfg) (hmax : ¬ IsNaN cfg.fomMax) (dsm : Dsm K V F)
    (hdr : NoDriftRun cfg dsm) (o : O) (ds : List (DumpCall C F))
    (hds : ds <+: (execute cfg env ops dsm o).2.dumps) :
    (∀ d, bestFile ds = some d →
      (∃ before c after f, (execute cfg env ops dsm o).2.log = before ++ c :: after ∧ d.calls = before.length + 1 ∧
        c.Succeeded ∧ c.value = some f ∧ d.ctl = some c.ctl ∧ d.fom = (if cfg.maximize then -f else f) ∧
        ∀ c' ∈ before, ∀ g, c'.value = some g → ¬ IsNaN g → Better cfg.maximize f g) ∧
      ∀ r ∈ ds, ¬ r.fom < d.fom) ∧
    (bestFile ds = none → ∀ r ∈ ds, ¬ r.fom < cfg.fomMax) := by
  have H := reports cfg env ops hre hmax dsm hdr o
  obtain ⟨h1, h2, h3⟩ := H.file ds hds
  refine ⟨fun d hd => ⟨?_, fun r hr => h1 r hr d hd⟩, h3⟩
  obtain ⟨hm, hrec⟩ := h2 d hd
  obtain ⟨before, c, after, f, g1, g2, g3, g4, g5, g6, g7⟩ := H.ok d (hds.subset hm)
  exact ⟨before, c, after, f, g1, g2, g3, g4, g5, g6, (g7.1 hrec).2⟩

/-- **C10.** At the end of a run in which no evaluation failed, the best-controls file contains the reported best figure
of merit. -/
theorem C10_final_file_is_final_best_partial (hre : NoReEval cfg) (hmax : ¬ IsNaN cfg.fomMax) (dsm : Dsm K V F)
    (hdr : NoDriftRun cfg dsm) (o : O)
    (hok : ∀ c ∈ (execute cfg env ops dsm o).2.log, ∀ f, c.value = some f → c.Succeeded) :
    (match bestFile (execute cfg env ops dsm o).2.dumps with
      | some d => d.fom
      | none => cfg.fomMax) = (execute cfg env ops dsm o).2.bestFoM := by
  let Q : AlgState V C O F → Prop := fun s => (∀ c ∈ s.log, ∀ f, c.value = some f → c.Succeeded) →
    (match bestFile s.dumps with | some d => d.fom | none => cfg.fomMax) = s.bestFoM
  have key : ∀ b s s', SimpleEff cfg env b s s' → Q s → Q s' := by
    intro b s s' h hs hok
    cases h with
    | still hl hb hd _ _ => rw [hb, hd]; exact hs (hl ▸ hok)
    | raised c hl hc hbf hb hd hr hg =>
      rw [hb, hd]; exact hs (fun c' hc' => hok c' (by rw [hl]; exact List.mem_append_left _ hc'))
    | answered x c a f p t i hf hbt hl hb hd hr hr' hg hp hi =>
      have hst : a.status.getD 0 = 0 := by
        obtain ⟨a', f', h1, _, h3⟩ := hok ⟨x, c, .ok a, p, t⟩
          (by rw [hl]; exact List.mem_append_right _ (List.mem_singleton_self _)) f hf
        cases h1
        exact h3
      rw [if_pos hst] at hd
      rw [hd, bestFile_concat, hb]
      by_cases hlt : dirMul cfg.maximize f < s.bestFoM
      · simp only [hlt, decide_true, if_true]
      · simp only [hlt, decide_false, if_false]
        exact hs (fun c' hc' => hok c' (by rw [hl]; exact List.mem_append_left _ hc'))
  have := (execute_inv (cfg := cfg) (env := env) (ops := ops) (d := false) Q Q dsm o (.inr hdr.2)
    (fun _ => rfl) (fun s s' ha hs => key _ _ _ (ha.simple hre hdr.1) hs)
    (fun s s' ha hs => key _ _ _ (ha.simple hre hdr.1) hs) (fun _ h => h)).1
  exact this hok

/-- The file of the run above after one, two and three reports. -/
example : ((execute nanCfg nanEnv exOps (fun _ x0 _ _ => evalPoints x0 (.num 0) [1, 2, 3, 4] 0) ()).2.dumps.inits.map
    (fun ds => (bestFile ds).map (fun d => (d.fom, d.calls)))) =
    [none, some (.num 5, 1), some (.num 5, 1), some (.num 3, 3), some (.num 3, 3)] := by decide +kernel

end QuOCS

/-
The reports of a run with automatic differentiation.
-/
import Verif.Lemmas.Reports
import Verif.Lemmas.HistoryAD

set_option linter.unusedSectionVars false
set_option linter.unusedVariables false

namespace QuOCS

variable {K V C O F G : Type} [LE K] [DecidableLE K]
variable [Add F] [Sub F] [Mul F] [Div F] [Neg F] [Zero F] [One F] [NatCast F] [LE F] [LT F] [DecidableLE F]
  [DecidableLT F] [FloatOrder F]
variable {cfg : AlgCfg K F} {env : Env V C F} {ops : CtlOps O V C}

/-- a report with the number of the evaluation in place of the number of calls -/
def byNumber (r : DumpCall C F) : DumpCall C F := { r with calls := r.iteration }

theorem adLoop_keepsOk {P Q : AdState V C O F → Prop} (lib : AdLib V C F) (hPQ : ∀ s, P s → Q s)
    (hv : ∀ x, KeepsOk P Q (onAlg (adValue cfg env ops x))) (hg : ∀ x, KeepsOk P Q (adGradient lib env ops x))
    (hf : ∀ s o k x l, P s → P { s with alg := { s.alg with ctl := o, superIt := k, bestXX := x, paraList := l } }) (n k : ℕ) :
    KeepsOk P Q (adLoop lib cfg env ops n k) := by
  have hi : ∀ {α : Type} (st : AdStrat V F α), KeepsOk P Q (st.interp lib cfg env ops : Prog (AdState V C O F) α) := by
    intro α st
    induction st with
    | ret a => exact .pure hPQ a
    | value x k ih => exact .bind (hv x) fun f => ih f
    | grad x k ih => exact .bind (hg x) fun g => ih g
    | fail e => exact .raise hPQ e
  have hu : KeepsOk P Q (onAlg (updateBasePulses ops) : Prog (AdState V C O F) Unit) := by
    intro s h
    unfold onAlg updateBasePulses
    dsimp only
    rcases hb : s.alg.bestXX with _ | x
    · exact ⟨hPQ _ h, fun _ => h⟩
    · dsimp only
      rcases ops.updateBase s.alg.ctl x with e | o
      · exact ⟨hPQ _ h, fun _ => h⟩
      · have := hf s o s.alg.superIt s.alg.bestXX (s.alg.paraList ++ [x]) h
        rw [hb] at this
        exact ⟨hPQ _ this, fun _ => this⟩
  induction n generalizing k with
  | zero => exact .pure hPQ _
  | succ n ih =>
    refine .bind (.bind ?_ fun _ => .bind (.get hPQ) fun s => .bind (.lift hPQ _) fun o =>
      .bind ?_ fun _ => .bind ?_ fun _ => hu) fun _ => ih (k + 1)
    · intro s h
      have := hf s s.alg.ctl k s.alg.bestXX s.alg.paraList h
      exact ⟨hPQ _ this, fun _ => this⟩
    · intro s h
      have := hf s o s.alg.superIt s.alg.bestXX s.alg.paraList h
      exact ⟨hPQ _ this, fun _ => this⟩
    · exact .bind (.get hPQ) fun s => .bind (.lift hPQ _) fun _ => .bind (.lift hPQ _) fun _ =>
        .bind (.lift hPQ _) fun _ => hi _

/-- The reports are those of the calls for values. -/
def AdReported (cfg : AlgCfg K F) (s : AdState V C O F) : Prop :=
  s.alg.dumps.map byNumber = reportsOf (inSign cfg.maximize) cfg.fomMax 0 ((valueCalls s.gradAt s.alg.log).map Call.seen)

/-- While the program goes on. -/
structure AdReporting (cfg : AlgCfg K F) (s : AdState V C O F) : Prop where
  reports : AdReported cfg s
  telling : AdTelling cfg s
  best : s.alg.running = true →
    s.alg.bestFoM = bestAfter (inSign cfg.maximize) cfg.fomMax ((valueCalls s.gradAt s.alg.log).map Call.seen)

theorem AdReporting.value (hk : cfg.kind = .grape) (x : V) :
    KeepsOk (AdReporting cfg) (AdReported cfg) (onAlg (adValue cfg env ops x) : Prog (AdState V C O F) F) := by
  intro s h
  have ht := adValue_keeps (cfg := cfg) (env := env) (ops := ops) hk x s h.telling
  have hsp := (routineCall_spec (cfg := cfg) (env := env) (ops := ops) x 0 { s.alg with isRecord := false }).simple (.inl hk) rfl
    (fun h => absurd hk h)
  have e : adValue cfg env ops x s.alg = routineCall cfg env ops x 0 { s.alg with isRecord := false } := rfl
  have hr := h.reports
  unfold AdReported at hr
  unfold onAlg at ht ⊢
  simp only [e] at ht ⊢
  generalize routineCall cfg env ops x 0 { s.alg with isRecord := false } = r at hsp ht
  cases hsp with
  | still hl hb hd hrun hp =>
    have e : AdReported cfg { s with alg := r.2 } := by
      unfold AdReported
      show r.2.dumps.map byNumber = reportsOf _ _ 0 ((valueCalls s.gradAt r.2.log).map Call.seen)
      rw [hd, hl]
      exact hr
    refine ⟨e, fun hok => ⟨e, ht.2 hok, fun hr' => ?_⟩⟩
    show r.2.bestFoM = bestAfter _ _ ((valueCalls s.gradAt r.2.log).map Call.seen)
    rw [hb, hl]
    refine h.best ?_
    by_contra hn
    have : r.2.running = false := hrun (by simpa using hn)
    have hr' : r.2.running = true := hr'
    rw [this] at hr'
    cases hr'
  | raised c hl hc hbf hb hd hrun hg =>
    have hu : usable c.seen = none := by
      unfold Call.value at hc
      unfold usable Call.seen
      rcases ha : c.ans with e | x
      · rfl
      · rw [ha] at hc
        dsimp only at hc ⊢
        split
        · exact hc
        · rfl
    refine ⟨?_, fun hok => by rw [hbf] at hok; cases hok⟩
    unfold AdReported
    show r.2.dumps.map byNumber = reportsOf _ _ 0 ((valueCalls s.gradAt r.2.log).map Call.seen)
    rw [hd, hl, valueCalls_value _ _ _ h.telling.1, List.map_append, List.map_singleton, reportsOf_append, hu]
    simpa using hr
  | answered x c a f p t i hf hbt hl hb hd hrun hr' hg hp hi =>
    have hi' : i = ((valueCalls s.gradAt s.alg.log).map Call.seen).length + 1 := by
      have := (h.telling.2.live hrun).1
      rw [hi, ← this]
    have hbest : s.alg.bestFoM = _ := h.best hrun
    have hv : valueCalls s.gradAt r.2.log = valueCalls s.gradAt s.alg.log ++ [⟨x, c, .ok a, p, t⟩] := by
      rw [hl]; exact valueCalls_value _ _ _ h.telling.1
    have e : AdReported cfg { s with alg := r.2 } := by
      unfold AdReported
      show r.2.dumps.map byNumber = reportsOf _ _ 0 ((valueCalls s.gradAt r.2.log).map Call.seen)
      rw [hv, List.map_append, List.map_singleton, reportsOf_append, ← hbest, ← hr, Nat.zero_add, ← hi', hd]
      by_cases hst : a.status.getD 0 = 0
      · simp only [hst, usable, Call.seen, hf, if_true, Option.toList_some, List.map_cons, List.map_nil, List.map_append]
        rfl
      · simp [hst, usable, Call.seen]
    refine ⟨e, fun hok => ⟨e, ht.2 hok, fun hr2 => ?_⟩⟩
    have hr2 : r.2.running = true := hr2
    rw [hr'] at hr2
    have hst : a.status.getD 0 = 0 := by simpa using hr2
    show r.2.bestFoM = bestAfter _ _ ((valueCalls s.gradAt r.2.log).map Call.seen)
    rw [hb, hv, List.map_append, List.map_singleton, bestAfter_append, ← hbest]
    simp only [bestAfter, usable, Call.seen, hst, hf, if_true, List.filterMap_cons, List.filterMap_nil, List.foldl_cons, List.foldl_nil]
    rfl

theorem AdReporting.gradient (lib : AdLib V C F) (x : V) :
    KeepsOk (AdReporting cfg) (AdReported cfg) (adGradient lib env ops x : Prog (AdState V C O F) V) := by
  intro s h
  have ht := adGradient_keeps (cfg := cfg) (env := env) (ops := ops) lib x s h.telling
  unfold adGradient at ht ⊢
  rcases hg : ops.getControls s.alg.ctl x with e | ⟨o, c⟩
  · exact ⟨h.reports, fun _ => h⟩
  · rw [hg] at ht
    have hr : ∀ l : Call V C F, AdReported cfg
        ({ s with alg := { s.alg with ctl := o, log := s.alg.log ++ [l] }, gradAt := s.gradAt ++ [s.alg.log.length] } :
          AdState V C O F) := by
      intro l
      unfold AdReported
      show s.alg.dumps.map byNumber = reportsOf _ _ 0 ((valueCalls (s.gradAt ++ [s.alg.log.length]) (s.alg.log ++ [l])).map Call.seen)
      rw [valueCalls_grad]
      exact h.reports
    have hb : ∀ l : Call V C F, s.alg.running = true → s.alg.bestFoM =
        bestAfter (inSign cfg.maximize) cfg.fomMax ((valueCalls (s.gradAt ++ [s.alg.log.length]) (s.alg.log ++ [l])).map Call.seen) := by
      intro l
      rw [valueCalls_grad]
      exact h.best
    dsimp only at ht ⊢
    rcases ha : env.getFoM s.alg.log c with e | a <;> rw [ha] at ht
    · exact ⟨hr _, fun h => by cases h⟩
    · dsimp only at ht ⊢
      rcases hf : a.fom with _ | f <;> simp only [hf] at ht ⊢
      · exact ⟨hr _, fun h => by cases h⟩
      · exact ⟨hr _, fun hok => ⟨hr _, ht.2 hok, hb _⟩⟩

/-- In every run with automatic differentiation. -/
theorem adExecute_reports (lib : AdLib V C F) (o : O) : AdReported (adCfg cfg) (adExecute lib cfg env ops o).2 :=
  (adLoop_keepsOk (cfg := adCfg cfg) (env := env) (ops := ops) (P := AdReporting (adCfg cfg)) (Q := AdReported (adCfg cfg)) lib (fun _ h => h.reports)
    (AdReporting.value rfl) (AdReporting.gradient lib)
    (fun s o k x l h => ⟨h.reports, h.telling.same _ rfl rfl rfl rfl rfl rfl rfl, h.best⟩) cfg.maxSI 1
    ⟨initState (adCfg cfg) env o, []⟩ ⟨rfl, ⟨by simp,
      ⟨⟨rfl, rfl, ⟨[], rfl, .inl rfl⟩, fun _ => rfl⟩, fun _ => rfl, fun _ => ⟨rfl, rfl⟩⟩⟩, fun _ => rfl⟩).1

end QuOCS

/-
The reports of a run without repeated measurements, in order.
-/
import Verif.Spec.Reports
import Verif.Lemmas.History

set_option linter.unusedSectionVars false
set_option linter.unusedVariables false

namespace QuOCS

section
variable {C F G : Type} [LT G] [DecidableLT G] {sign : F → G}

theorem bestAfter_append (b : G) (l m : List (C × Py (Answer F))) :
    bestAfter sign b (l ++ m) = bestAfter sign (bestAfter sign b l) m := by
  unfold bestAfter
  rw [List.filterMap_append, List.foldl_append]

theorem reportsOf_append (b : G) (k : ℕ) (l : List (C × Py (Answer F))) (c : C × Py (Answer F)) :
    reportsOf sign b k (l ++ [c]) = reportsOf sign b k l ++
      ((usable c).toList.map fun f => ⟨some c.1, decide (sign f < bestAfter sign b l), sign f, k + l.length + 1, k + l.length + 1⟩) := by
  induction l generalizing b k with
  | nil =>
    simp only [reportsOf, List.nil_append, List.append_nil, List.length_nil, Nat.add_zero]
    rfl
  | cons a l ih =>
    rw [List.cons_append, reportsOf, ih, reportsOf, List.append_assoc, List.length_cons, ← bestAfter_append]
    rw [show k + 1 + l.length + 1 = k + (l.length + 1) + 1 by omega]
    rfl

theorem reportsOf_calls (b : G) (k : ℕ) (l : List (C × Py (Answer F))) : ∀ r ∈ reportsOf sign b k l, k < r.calls := by
  induction l generalizing b k with
  | nil => simp [reportsOf]
  | cons a l ih =>
    intro r hr
    rw [reportsOf, List.mem_append] at hr
    rcases hr with hr | hr
    · obtain ⟨f, _, rfl⟩ := List.mem_map.1 hr
      show k < k + 1
      omega
    · exact (by omega : k < k + 1).trans (ih _ _ r hr)

/-- The reports made until `n` calls are the reports of the first `n` calls. -/
theorem reportsOf_take (b : G) (k n : ℕ) (l : List (C × Py (Answer F))) :
    (reportsOf sign b k l).filter (fun r => r.calls ≤ k + n) = reportsOf sign b k (l.take n) := by
  induction l generalizing b k n with
  | nil => simp [reportsOf]
  | cons a l ih =>
    rcases n with _ | n
    · rw [List.take_zero, reportsOf, List.filter_eq_nil_iff]
      intro r hr
      have := reportsOf_calls b k (a :: l) r hr
      simpa using this
    · rw [List.take_succ_cons, reportsOf, reportsOf, List.filter_append]
      congr 1
      · rw [List.filter_eq_self]
        intro r hr
        obtain ⟨f, _, rfl⟩ := List.mem_map.1 hr
        simp
      · rw [← ih]
        refine List.filter_congr fun r _ => ?_
        rw [show k + (n + 1) = k + 1 + n by omega]

end

variable {K V C O F : Type} [LE K] [DecidableLE K]
variable [Add F] [Sub F] [Mul F] [Div F] [Neg F] [Zero F] [One F] [NatCast F] [LE F] [LT F] [DecidableLE F]
  [DecidableLT F] [FloatOrder F]
variable {cfg : AlgCfg K F} {env : Env V C F} {ops : CtlOps O V C}

/-- The invariant: the reports are those of the calls. -/
def Reported (cfg : AlgCfg K F) (s : AlgState V C O F) : Prop :=
  s.dumps = reportsOf (inSign cfg.maximize) cfg.fomMax 0 (s.log.map Call.seen)

/-- While the program goes on. -/
structure Reporting (cfg : AlgCfg K F) (s : AlgState V C O F) : Prop where
  reports : Reported cfg s
  telling : Telling cfg (fun _ : F => ()) (fun _ : F => ()) (s.log.map Call.seen) s
  best : s.running = true → s.bestFoM = bestAfter (inSign cfg.maximize) cfg.fomMax (s.log.map Call.seen)

theorem Reporting.act (hre : NoReEval cfg) (hdr : cfg.driftAfterSI = false) {b : Bool} {s s' : AlgState V C O F} (h : Reporting cfg s)
    (a : Act cfg env ops false b s s') : Reported cfg s' ∧ (b = true → Reporting cfg s') := by
  have ht := h.telling.act (env := env) (ops := ops) (d := false) (.inr fun _ _ => rfl) (.inr fun _ _ => rfl) a
  have hr := h.reports
  unfold Reported at hr
  cases a.simple hre hdr with
  | still hl hb hd hrun hp =>
    have e : Reported cfg s' := by unfold Reported; rw [hd, hl, hr]
    refine ⟨e, fun hb' => ⟨e, ht.2 hb', fun hr' => ?_⟩⟩
    rw [hb, hl]
    refine h.best ?_
    by_contra hn
    rw [hrun (by simpa using hn)] at hr'
    cases hr'
  | raised c hl hc hbf hb hd hrun hg =>
    have hu : usable c.seen = none := by
      unfold Call.value at hc
      unfold usable Call.seen
      rcases ha : c.ans with e | x
      · rfl
      · rw [ha] at hc
        dsimp only at hc ⊢
        split
        · exact hc
        · rfl
    refine ⟨?_, fun hb' => by rw [hbf] at hb'; cases hb'⟩
    unfold Reported
    rw [hd, hl, hr, List.map_append, List.map_singleton, reportsOf_append, hu]
    simp
  | answered x c a f p t i hf hbt hl hb hd hrun hr' hg hp hi =>
    have hi' : i = s.log.length + 1 := by
      have := (h.telling.live hrun).1
      rw [List.length_map] at this
      omega
    have hbest := h.best hrun
    have e : Reported cfg s' := by
      unfold Reported
      rw [hd, hl, hr, List.map_append, List.map_singleton, reportsOf_append, ← hbest, hi']
      by_cases hst : a.status.getD 0 = 0
      · simp only [hst, usable, Call.seen, hf, if_true, List.length_map, Nat.zero_add, Option.toList_some, List.map_cons, List.map_nil]
        rfl
      · simp [hst, usable, Call.seen]
    refine ⟨e, fun hb' => ⟨e, ht.2 hb', fun hr2 => ?_⟩⟩
    rw [hr'] at hr2
    have hst : a.status.getD 0 = 0 := by simpa using hr2
    rw [hb, hl, List.map_append, List.map_singleton, bestAfter_append, ← hbest]
    simp only [bestAfter, usable, Call.seen, hst, hf, if_true, List.filterMap_cons, List.filterMap_nil, List.foldl_cons, List.foldl_nil]
    rfl

/-- In every execution without repeated measurements, whether it ends normally or with an exception. -/
theorem execute_reports (hre : NoReEval cfg) (dsm : Dsm K V F) (hdr : NoDriftRun cfg dsm) (o : O) :
    Reported cfg (execute cfg env ops dsm o).2 :=
  (execute_inv (d := false) (fun s => Reporting cfg s) (fun s => Reported cfg s) dsm o (.inr hdr.2)
    ⟨rfl, ⟨⟨rfl, rfl, ⟨[], rfl, .inl rfl⟩, fun _ => rfl⟩, fun _ => rfl, fun _ => ⟨rfl, rfl⟩⟩, fun _ => rfl⟩
    (fun s s' a h => (h.act hre hdr.1 a).2 rfl) (fun s s' a h => (h.act hre hdr.1 a).1) (fun s h => h.reports)).1

end QuOCS

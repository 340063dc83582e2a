/-
C58 for whole runs: what a crash at any moment leaves on disk.
-/
import Verif.Model.Crash
import Verif.Props.Best
import Verif.Props.Dump

set_option linter.unusedSectionVars false
set_option linter.unusedVariables false

namespace QuOCS

/-- The file after some reports: absent before the first record, then complete. -/
def fileAfter {C F : Type} (ds : List (DumpCall C F)) : FileState (DumpCall C F) :=
  match bestFile ds with
  | none => .absent
  | some d => .complete d

section
variable {C F : Type}

theorem fileAfter_concat (ds : List (DumpCall C F)) (d : DumpCall C F) :
    fileAfter (ds ++ [d]) = if d.isRecord then .complete d else fileAfter ds := by
  unfold fileAfter bestFile
  rw [List.foldl_append, List.foldl_cons, List.foldl_nil]
  cases d.isRecord <;> rfl

/-- what can be found at a moment -/
def Found (all : List (DumpCall C F)) (p : ℕ × FileState (DumpCall C F)) : Prop :=
  p.1 ≤ all.length ∧ (p.2 = fileAfter (all.take p.1) ∨ (∃ d, all[p.1]? = some d ∧ d.isRecord = true) ∧
    (p.2 = .partly ∨ p.2 = fileAfter (all.take (p.1 + 1))))

theorem crash_found (before ds : List (DumpCall C F)) :
    ∀ p ∈ crashPoints before.length (fileAfter before) ds, Found (before ++ ds) p := by
  induction ds generalizing before with
  | nil =>
    intro p hp
    rw [crashPoints, List.mem_singleton] at hp
    subst hp
    refine ⟨by simp, .inl ?_⟩
    simp
  | cons d ds ih =>
    have hstep : ∀ p ∈ crashPoints (before.length + 1) (fileAfter (before ++ [d])) ds, Found (before ++ d :: ds) p := by
      intro p hp
      have := ih (before ++ [d]) p (by simpa using hp)
      simpa using this
    have htake : (before ++ d :: ds).take before.length = before := by simp
    have htake' : (before ++ d :: ds).take (before.length + 1) = before ++ [d] := by
      simp [List.take_append]
    intro p hp
    rw [crashPoints] at hp
    by_cases hr : d.isRecord = true
    · rw [if_pos hr] at hp
      rcases List.mem_append.1 hp with hp | hp
      · obtain ⟨s, hs, rfl⟩ := List.mem_map.1 hp
        refine ⟨by simp, ?_⟩
        simp only [dumpWriteSteps, List.mem_cons, List.not_mem_nil, or_false] at hs
        dsimp only
        rw [htake, htake', fileAfter_concat, if_pos hr]
        rcases hs with rfl | rfl | rfl
        · exact .inl rfl
        · exact .inr ⟨⟨d, by simp, hr⟩, .inl rfl⟩
        · exact .inr ⟨⟨d, by simp, hr⟩, .inr rfl⟩
      · refine hstep p ?_
        rw [fileAfter_concat, if_pos hr]
        exact hp
    · rw [if_neg hr] at hp
      rcases List.mem_cons.1 hp with rfl | hp
      · exact ⟨by simp, .inl (by rw [htake])⟩
      · refine hstep p ?_
        rw [fileAfter_concat, if_neg hr]
        exact hp

theorem crash_partly (before ds : List (DumpCall C F)) (d : DumpCall C F) (n : ℕ) (st : FileState (DumpCall C F)) (hr : d.isRecord = true) :
    (n + before.length, FileState.partly) ∈ crashPoints n st (before ++ d :: ds) := by
  induction before generalizing n st with
  | nil =>
    rw [List.nil_append, crashPoints, if_pos hr]
    exact List.mem_append_left _ (List.mem_map.2 ⟨.partly, by simp [dumpWriteSteps], by simp⟩)
  | cons e before ih =>
    have e1 : n + (e :: before).length = n + 1 + before.length := by simp; omega
    rw [List.cons_append, crashPoints, e1]
    split
    · exact List.mem_append_right _ (ih _ _)
    · exact List.mem_cons_of_mem _ (ih _ _)

end

section
open FloatOrder
variable {K V C O F : Type} [LE K] [DecidableLE K]
variable [Add F] [Sub F] [Mul F] [Div F] [Neg F] [Zero F] [One F] [NatCast F] [LE F] [LT F] [DecidableLE F] [DecidableLT F]
variable [FloatOrder F] {cfg : AlgCfg K F} {env : Env V C F} {ops : CtlOps O V C}

/-- **C58, partial.** Whatever the run does (any algorithm, search method, re-evaluation, drift compensation) and whenever the
process dies: the best-controls file shows the latest record that was reported, or the record that is just being reported,
or the process died while this record was being written and the file is broken. Missing: that last case. -/
theorem C58_crash_during_run_partial (dsm : Dsm K V F) (o : O) :
    ∀ p ∈ crashPoints 0 .absent (execute cfg env ops dsm o).2.dumps,
      p.1 ≤ (execute cfg env ops dsm o).2.dumps.length ∧
      (p.2 = fileAfter ((execute cfg env ops dsm o).2.dumps.take p.1) ∨
        (∃ d, (execute cfg env ops dsm o).2.dumps[p.1]? = some d ∧ d.isRecord = true) ∧
          (p.2 = .partly ∨ p.2 = fileAfter ((execute cfg env ops dsm o).2.dumps.take (p.1 + 1)))) := by
  intro p hp
  exact crash_found [] _ p hp

/-- **C58, partial.** Without re-evaluation and drift compensation: whenever the process dies, the best-controls file is broken (the
process died while a record was being written), or it contains the controls and the figure of merit of a successful call,
and nothing better has been reported so far; or there is no file and nothing better than the start value has been reported.
The reports up to this moment are `ds`. Missing: the first case. -/
theorem C58_crash_keeps_best_partial (hre : NoReEval cfg) (hmax : ¬ IsNaN cfg.fomMax) (dsm : Dsm K V F)
    (hdr : NoDriftRun cfg dsm) (o : O) (p : ℕ × FileState (DumpCall C F))
    (hp : p ∈ crashPoints 0 .absent (execute cfg env ops dsm o).2.dumps) : p.2 = .partly ∨
    ∃ ds, ds <+: (execute cfg env ops dsm o).2.dumps ∧ p.1 ≤ ds.length ∧
      ((p.2 = .absent ∧ ∀ r ∈ ds, ¬ r.fom < cfg.fomMax) ∨
      ∃ d, p.2 = .complete d ∧ (∀ r ∈ ds, ¬ r.fom < d.fom) ∧
        ∃ before c after f, (execute cfg env ops dsm o).2.log = before ++ c :: after ∧ d.calls = before.length + 1 ∧
          c.Succeeded ∧ c.value = some f ∧ d.ctl = some c.ctl ∧ d.fom = (if cfg.maximize then -f else f)) := by
  obtain ⟨hle, h⟩ := C58_crash_during_run_partial dsm o p hp
  have key : ∀ ds, ds <+: (execute cfg env ops dsm o).2.dumps → p.2 = fileAfter ds →
      ((p.2 = .absent ∧ ∀ r ∈ ds, ¬ r.fom < cfg.fomMax) ∨
      ∃ d, p.2 = .complete d ∧ (∀ r ∈ ds, ¬ r.fom < d.fom) ∧
        ∃ before c after f, (execute cfg env ops dsm o).2.log = before ++ c :: after ∧ d.calls = before.length + 1 ∧
          c.Succeeded ∧ c.value = some f ∧ d.ctl = some c.ctl ∧ d.fom = (if cfg.maximize then -f else f)) := by
    intro ds hds he
    obtain ⟨h1, h2⟩ := C10_best_file_is_best_partial cfg env ops hre hmax dsm hdr o ds hds
    unfold fileAfter at he
    rcases hb : bestFile ds with _ | d
    · rw [hb] at he
      exact .inl ⟨he, h2 hb⟩
    · rw [hb] at he
      obtain ⟨⟨before, c, after, f, g1, g2, g3, g4, g5, g6, -⟩, g7⟩ := h1 d hb
      exact .inr ⟨d, he, g7, before, c, after, f, g1, g2, g3, g4, g5, g6⟩
  rcases h with h | ⟨⟨d, hd, -⟩, h | h⟩
  · exact .inr ⟨_, List.take_prefix _ _, by rw [List.length_take]; omega, key _ (List.take_prefix _ _) h⟩
  · exact .inl h
  · have := (List.getElem?_eq_some_iff.1 hd).1
    exact .inr ⟨_, List.take_prefix _ _, by rw [List.length_take]; omega, key _ (List.take_prefix _ _) h⟩

/-- **C58 is violated by every record of every run**: for each report of a record there is a moment at which a crash leaves a
broken file, also if the file showed an earlier record before. -/
theorem C58_every_record_can_be_lost (dsm : Dsm K V F) (o : O) (before after : List (DumpCall C F)) (d : DumpCall C F)
    (hd : (execute cfg env ops dsm o).2.dumps = before ++ d :: after) (hr : d.isRecord = true) :
    (before.length, FileState.partly) ∈ crashPoints 0 .absent (execute cfg env ops dsm o).2.dumps := by
  rw [hd]
  have := crash_partly before after d 0 .absent hr
  rwa [Nat.zero_add] at this

/-- the moments of three reports, a record, none and a record: eight moments, at two of them the file is broken -/
example (a b c : DumpCall Unit ℚ) (ha : a.isRecord = true) (hb : b.isRecord = false) (hc : c.isRecord = true) :
    crashPoints 0 .absent [a, b, c] = [(0, .absent), (0, .partly), (0, .complete a), (1, .complete a), (2, .complete a),
      (2, .partly), (2, .complete c), (3, .complete c)] := by
  simp [crashPoints, ha, hb, hc, dumpWriteSteps]

end
end QuOCS

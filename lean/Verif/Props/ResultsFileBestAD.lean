/-
C110 and C99 for automatic differentiation: the best controls are those of the file, and they were used in a call for a figure of merit.
-/
import Verif.Lemmas.ReproduceFirstAD
import Verif.Props.ResultsFileAD
import Verif.Props.ResultsFileBest

set_option linter.unusedSectionVars false
set_option linter.unusedVariables false

namespace QuOCS

variable {w : Surroundings} {L : AdProgramLib} {d : PDict} {r : AdOutcome} {pn qn : List String}

/-! ### Proof -/

/-- The best controls are those of the last record. -/
theorem ad_last_record {s : GradientSettings} {cfg : AlgCfg ℚ ℚ} {o : Controls ℚ} (h : AdParts w L d r s cfg o) (hp : PlainControls w.lib d) (hd : w.Draws d)
    (hst : StandardDictionary d) (h1 : setting d ["algorithm_settings", "super_iteration_number"] (.num 1) = .num 1) (he : r.ended = .ok ()) :
    (adRun w L s cfg o).2.alg.bestFoM = (adCfg cfg).fomMax ∨
    ∃ c f, LastRecord (adCfg cfg) (valueCalls (adRun w L s cfg o).2.gradAt (adRun w L s cfg o).2.alg.log) c f ∧ r.fom = f ∧ r.best = .ok c.ctl := by
  obtain ⟨hk, hmax, _, _, _, hsi⟩ := ad_cfg h.hcfg
  have hone : cfg.maxSI = 1 := by
    have := h.uses.superIterations rfl
    rw [h1] at this
    have e : s.maxSI = 1 := by
      have h2 : IsInt w.lib (.num ((1 : ℤ) : ℚ)) s.maxSI := by simpa using this
      exact h2.int
    rw [hsi, e]
    rfl
  obtain ⟨hu, hf⟩ := usable_controls h.uses.controls hp
  have hS : StandardControls w.lib.M s.controls.pulses s.controls.times s.controls.params := by
    refine ⟨fun x hx => ?_, fun x hx => ?_, fun x hx => ?_, hf, fun x hx => ?_⟩
    · obtain ⟨p, hpm, hU⟩ := forall2_mem h.uses.controls.pulses hx
      exact standard_shaping hU (hst.pulses p hpm)
    · obtain ⟨p, hpm, hU⟩ := forall2_mem h.uses.controls.pulses hx
      exact hU.overwrite.2 (hst.pulses p hpm).overwrite
    · obtain ⟨p, hpm, hU⟩ := forall2_mem h.uses.controls.pulses hx
      exact zeroUpdate_usable (hu.pulses x hx) (library_basis hU)
    · obtain ⟨p, hpm, hU⟩ := forall2_mem h.uses.controls.params hx
      exact hst.limits p hpm _ _ hU.lower hU.upper
  obtain ⟨o', h1, h2⟩ := mkControls_exists (M := w.lib.M) hu
  obtain rfl : o' = o := by rw [h.hcontrols] at h1; cases h1; rfl
  rw [h.ended] at he
  have hb := AfterFirstAD.execute (lib := s.adLib w L s.vars) (env := w.env s.vars)
    (ad_reproducible hS hu (enough_random h.uses.controls hp hd)).repro hone o' h2 () he
  refine hb.best.imp id ?_
  rintro ⟨c, f, hl, hv, ⟨x, hx, hs⟩⟩
  refine ⟨c, f, hl, ?_, ?_⟩
  · rw [h.fom]
    unfold finalFoM
    rw [show (adRun w L s cfg o').2.alg.bestFoM = dirMul cfg.maximize f from hv]
    exact dirMul_dirMul cfg.maximize f
  · rw [h.best]
    unfold bestControls
    simp only [show (aOps w s).mean (adRun w L s cfg o').2.alg.ctl = .ok x from hx, bind, Except.bind]
    unfold Shows at hs
    rcases hg : (aOps w s).getControls (adRun w L s cfg o').2.alg.ctl x with e | p
    · rw [show (aOps w s).getControls (adExecute (s.adLib w L s.vars) cfg (w.env s.vars) (aOps w s) o').2.alg.ctl x = .error e from hg] at hs; cases hs
    · rw [show (aOps w s).getControls (adExecute (s.adLib w L s.vars) cfg (w.env s.vars) (aOps w s) o').2.alg.ctl x = .ok p from hg] at hs
      exact hs

/-! ### Theorems -/

/-- **C99, partial.** As `C99_best_controls_partial`; moreover the call was one for a figure of merit, the first one of those with the best value. Missing: more than
one super-iteration. -/
theorem C99_best_evaluation_partial (h : optimizeAD w L d = some (.ok r)) (hp : PlainControls w.lib d) (hd : w.Draws d) (hst : StandardDictionary d)
    (h1 : setting d ["algorithm_settings", "super_iteration_number"] (.num 1) = .num 1) (he : r.ended = .ok ()) :
    IsStart d r.fom ∨ ∃ before after c, r.evaluations = before ++ c :: after ∧ c.value = some r.fom ∧ r.best = .ok c.1 ∧
      (∀ k ∈ before, ∀ f, k.value = some f → BetterFor d r.fom f) ∧ ∀ k ∈ after, ∀ f, k.value = some f → ¬ BetterFor d f r.fom := by
  obtain ⟨s, cfg, o, h⟩ := ad_parts h
  rcases ad_last_record h hp hd hst h1 he with e | ⟨c, f, ⟨pre, post, hl, h2, h3, h4⟩, hf, hb⟩
  · left
    rw [h.fom]
    unfold finalFoM
    rw [e]
    exact h.start.1
  · right
    subst hf
    refine ⟨pre.map Call.seen, post.map Call.seen, c.seen, ?_, ?_, hb, ?_, ?_⟩
    · rw [h.values, hl, List.map_append, List.map_cons]
    · exact (seen_value c).trans h2
    · intro k hk f hf
      obtain ⟨k, hk', rfl⟩ := List.mem_map.1 hk
      have := foldBest_le (cfg := adCfg cfg) pre k hk' f ((seen_value k).symm.trans hf)
      rw [← h.better, ← dirMul_lt]
      exact h3.trans_le this
    · intro k hk f hf
      obtain ⟨k, hk', rfl⟩ := List.mem_map.1 hk
      rw [← h.better, ← dirMul_lt]
      exact h4 k hk' f ((seen_value k).symm.trans hf)

/-- **C110, partial (automatic differentiation).** With another format than `json` and one super-iteration. -/
theorem C110_best_controls_ad_partial (h : optimizeAD w L d = some (.ok r)) (hp : PlainControls w.lib d) (hd : w.Draws d) (hst : StandardDictionary d)
    (h1 : setting d ["algorithm_settings", "super_iteration_number"] (.num 1) = .num 1) (he : r.ended = .ok ()) (hN : Named d pn qn) (hD : DistinctNames pn qn)
    (hj : setting d ["dump_format"] (.str "npz") ≠ .str "json") (ha : ∀ c ∈ r.evaluations, c.value = usable c) :
    ∃ file, r.saved r.evaluations.length = .ok file ∧ (file = none → IsStart d r.fom) ∧
      ∀ t, file = some t → ∃ c f k, r.best = .ok c ∧ FileShows pn qn t c f k := by
  obtain ⟨file, e1, e2, _⟩ := C110_final_ad_partial h hp hd hN hD hj ha
  obtain ⟨file', e1', hsb⟩ := C110_file_ad_partial h hp hd hN hD hj r.evaluations.length
  rw [e1] at e1'
  cases e1'
  rw [List.take_length] at hsb
  refine ⟨file, e1, e2, fun t ht => ?_⟩
  subst ht
  have hB := C99_best h
  obtain ⟨s, cfg, o, h⟩ := ad_parts h
  rw [h.values] at hsb ha
  rcases ad_last_record h hp hd hst h1 he with e | ⟨c, f, hl, hf, hb⟩
  · exfalso
    obtain ⟨k, c0, v, g, a1, a2, m1, m2, a3, a4, a5, a6⟩ := hsb
    have hc0 := List.mem_of_getElem? a1
    refine hB.1 c0 (by rw [h.values]; exact hc0) v (by rw [ha c0 hc0]; exact a2) (a4 _ ?_)
    rw [h.fom]
    unfold finalFoM
    rw [e]
    exact h.start.1
  · obtain ⟨g, k, hsh⟩ := record_shown (cfg := adCfg cfg) h.better hl (fun k hk => by
      have := ha k.seen (List.mem_map.2 ⟨k, hk, rfl⟩)
      exact (seen_value k).symm.trans this) hsb
    exact ⟨c.ctl, g, k, hb, hsh⟩

/-! ### Examples -/

/-- what is checked in the example: the pulses in the file at the end and those of the best controls -/
def adFileAndBest (r : Option (Py AdOutcome)) : Option (List (List ℚ) × Option (List (List ℚ))) :=
  match r with
  | some (.ok r) => match r.saved r.evaluations.length with
    | .ok (some t) => some (["p", "q"].filterMap fun k => match t.lookup k with | some (.row u) => some u | _ => none,
        match r.best with | .ok c => some c.pulses | .error _ => none)
    | _ => none
  | _ => none

set_option synthInstance.maxSize 1000 in
example : adFileAndBest (optimizeAD exGrapeAround exAdLib (exAdProgram 2)) =
    some ([[0, 1 / 6, 1 / 4], [3 / 10, 1 / 3, 0]], some [[0, 1 / 6, 1 / 4], [3 / 10, 1 / 3, 0]]) := by decide +kernel

end QuOCS

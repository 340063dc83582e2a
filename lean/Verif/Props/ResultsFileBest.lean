/-
C110: at the end the file with the best controls shows the controls that `get_best_controls` returns.
-/
import Verif.Lemmas.ReproduceFirst
import Verif.Props.ResultsFile

set_option linter.unusedSectionVars false
set_option linter.unusedVariables false

namespace QuOCS

/-! ### Proof -/

theorem foldBest_le {V C : Type} {cfg : AlgCfg ℚ ℚ} (l : List (Call V C ℚ)) : ∀ c ∈ l, ∀ f, c.value = some f → foldBest cfg l ≤ dirMul cfg.maximize f := by
  induction l using List.reverseRecOn with
  | nil => simp
  | append_singleton l c ih =>
    intro k hk f hf
    rcases hv : c.value with _ | g
    · have e : foldBest cfg (l ++ [c]) = foldBest cfg l := by unfold foldBest; rw [List.filterMap_append]; simp [hv]
      rw [e]
      rcases List.mem_append.1 hk with hk | hk
      · exact ih k hk f hf
      · rw [List.mem_singleton.1 hk, hv] at hf; cases hf
    · rw [foldBest_append _ hv]
      rcases List.mem_append.1 hk with hk | hk
      · have := ih k hk f hf
        split
        · rename_i h; exact h.le.trans this
        · exact this
      · rw [List.mem_singleton.1 hk, hv] at hf
        cases hf
        split
        · exact le_rfl
        · rename_i h; exact not_lt.1 h

variable {w : Surroundings} {d : PDict} {r : Outcome} {pn qn : List String}

/-- The call in the file is the last record. -/
theorem record_shown {V : Type} {cfg : AlgCfg ℚ ℚ} {log : List (Call V (ControlsOut ℚ) ℚ)} {c : Call V (ControlsOut ℚ) ℚ} {f : ℚ}
    (hb : ∀ x y, Better cfg.maximize x y ↔ BetterFor d x y) (hr : LastRecord cfg log c f) (ha : ∀ k ∈ log, k.value = usable (k.ctl, k.ans)) {t : ResultsDict}
    (hf : ShowsBest d pn qn (log.map fun k => (k.ctl, k.ans)) (some t)) : ∃ g k, FileShows pn qn t c.ctl g k := by
  obtain ⟨k, c0, v, g, a1, a2, m1, m2, a3, a4, a5, a6⟩ := hf
  obtain ⟨pre, post, rfl, h2, h3, h4⟩ := hr
  refine ⟨g, k + 1, ?_⟩
  have hcu : usable (c.ctl, c.ans) = some f := by rw [← ha c (by simp)]; exact h2
  have hlt : ∀ x y, dirMul cfg.maximize x < dirMul cfg.maximize y ↔ BetterFor d x y := fun x y => by rw [dirMul_lt]; exact hb x y
  rw [List.getElem?_map, Option.map_eq_some_iff] at a1
  obtain ⟨c1, b1, rfl⟩ := a1
  have hc1 : c1.value = some v := by rw [ha c1 (List.mem_of_getElem? b1)]; exact a2
  rcases lt_trichotomy k pre.length with hk | hk | hk
  · exfalso
    rw [List.getElem?_append_left hk] at b1
    have := h3.trans_le (foldBest_le pre c1 (List.mem_of_getElem? b1) v hc1)
    rw [hlt] at this
    exact a5 (c.ctl, c.ans) (by simp) f hcu this
  · subst hk
    rw [List.getElem?_append_right le_rfl, Nat.sub_self] at b1
    cases b1
    exact a3
  · exfalso
    have hm : (c.ctl, c.ans) ∈ List.take k ((pre ++ c :: post).map fun k => (k.ctl, k.ans)) := by
      rw [← List.map_take]
      refine List.mem_map.2 ⟨c, ?_, rfl⟩
      rw [List.take_append]
      refine List.mem_append_right _ ?_
      obtain ⟨j, hj⟩ : ∃ j, k - pre.length = j + 1 := ⟨k - pre.length - 1, by omega⟩
      rw [hj, List.take_succ_cons]
      exact List.mem_cons_self
    have h5 := a6 _ hm f hcu
    rw [List.getElem?_append_right hk.le] at b1
    obtain ⟨j, hj⟩ : ∃ j, k - pre.length = j + 1 := ⟨k - pre.length - 1, by omega⟩
    rw [hj, List.getElem?_cons_succ] at b1
    refine h4 c1 (List.mem_of_getElem? b1) v hc1 ?_
    rw [hlt]
    exact h5

/-- **C110.** A completed dCRAB optimization with plain and standard controls, without repeated measurements, where all calls had status code zero: if there is a
file at the end, it shows the controls returned by `get_best_controls`, under their names; without a file the start value is reported. -/
theorem C110_best_controls_partial (h : optimize w d = some (.ok r)) (hk : IsDcrab d) (hp : PlainControls w.lib d) (hst : StandardDictionary d)
    (hs : SingleMeasurements d) (hr : w.Draws d) (he : r.ended = .ok ()) (hN : Named d pn qn) (hD : DistinctNames pn qn)
    (ha : ∀ c ∈ r.calls, c.value = usable c) :
    ∃ file, r.saved r.calls.length = .ok file ∧ (file = none → IsStart d r.fom) ∧
      ∀ t, file = some t → ∃ c f k, r.best = .ok c ∧ FileShows pn qn t c f k := by
  obtain ⟨file, e1, e2, _⟩ := C110_final_partial h hs hN hD ha
  obtain ⟨file', e1', hsb⟩ := C110_file_partial h hs hN hD r.calls.length
  rw [e1] at e1'
  cases e1'
  rw [List.take_length] at hsb
  refine ⟨file, e1, e2, fun t ht => ?_⟩
  subst ht
  have hB := C96_best h hs
  obtain ⟨s, cfg, dsm, o, h⟩ := optimize_parts h
  obtain ⟨h1, h2, h3⟩ := h.single hs
  obtain ⟨hu, hf⟩ := usable_controls h.usesControls hp
  have hR := fun k => enough_random h.usesControls hp hr k
  have hK := h.dcrab hk
  have hS := h.standard hu hf hst
  have he' := he
  rw [h.ended] at he'
  have hfom := h.fom
  have hbest := h.best
  have hcalls := h.calls
  unfold theRun at he' hfom hbest hcalls
  rw [hK] at he' hfom hbest hcalls
  obtain ⟨o1, k1, k2⟩ := mkControls_exists (M := w.lib.M) hu
  obtain rfl : o1 = o := by rw [h.hcontrols] at k1; cases k1; rfl
  have hb := BetweenFirst.execute (env := w.env s.vars) (system_reproducible (sqrt := w.sqrt) (draws := w.draws) hS hu hR).repro (.inr h1)
    (by rw [hK]; simp) dsm ((h.library h3.le).noDrift h2) o1 k2 () he'
  rw [hcalls] at hsb ha
  rcases hb.best with e | ⟨c, f, hl, hv, ⟨x, hx, hs⟩⟩
  · exfalso
    obtain ⟨k, c0, v, g, a1, a2, m1, m2, a3, a4, a5, a6⟩ := hsb
    have hc0 := List.mem_of_getElem? a1
    refine hB.1 c0 (by rw [hcalls]; exact hc0) v (by rw [ha c0 hc0]; exact a2) (a4 _ ?_)
    rw [hfom]
    unfold finalFoM IsStart
    rw [e, h.kind.2]
    unfold dirMul
    rw [← h.maximize]
    cases cfg.maximize <;> simp
  · obtain ⟨g, k, hsh⟩ := record_shown h.better hl (fun k hk => by
      have := ha (k.ctl, k.ans) (List.mem_map.2 ⟨k, hk, rfl⟩)
      rw [← this]
      exact (seen_value k).symm) hsb
    refine ⟨c.ctl, g, k, ?_, hsh⟩
    obtain ⟨best, hbe⟩ := system_best (F := ℚ) (V := Unit) (sqrt := w.sqrt) (draws := w.draws) hu hR hb.inv
    obtain ⟨x', hx', hs'⟩ := showsMean_of_best hbe
    rw [hx] at hx'; cases hx'
    unfold Shows at hs hs'
    rw [hs] at hs'; cases hs'
    rw [hbest]
    exact hbe

/-- **C110 (GRAPE).** -/
theorem C110_best_controls_grape_partial {L : GrapeLib} (h : optimizeGrape w L d = some (.ok r)) (hp : PlainControls w.lib d) (hst : StandardDictionary d)
    (he : r.ended = .ok ()) (hN : Named d pn qn) (hD : DistinctNames pn qn) (ha : ∀ c ∈ r.calls, c.value = usable c) :
    ∃ file, r.saved r.calls.length = .ok file ∧ (file = none → IsStart d r.fom) ∧
      ∀ t, file = some t → ∃ c f k, r.best = .ok c ∧ FileShows pn qn t c f k := by
  obtain ⟨file, e1, e2, _⟩ := C110_final_grape h hN hD ha
  obtain ⟨file', e1', hsb⟩ := C110_file_grape h hN hD r.calls.length
  rw [e1] at e1'
  cases e1'
  rw [List.take_length] at hsb
  refine ⟨file, e1, e2, fun t ht => ?_⟩
  subst ht
  have hB := C98_best h
  obtain ⟨s, cfg, o, h⟩ := grape_parts h
  obtain ⟨hk, hmax, _⟩ := grape_cfg h.hcfg
  obtain ⟨hu, hf⟩ := usable_controls h.uses.controls hp
  have hS : StandardControls w.lib.M s.controls.pulses s.controls.times s.controls.params := by
    refine ⟨fun x hx => ?_, fun x hx => ?_, fun x hx => ?_, hf, fun x hx => ?_⟩
    · obtain ⟨p, hpm, hU⟩ := forall2_mem h.uses.controls.pulses hx
      exact standard_shaping hU (hst.pulses p hpm)
    · obtain ⟨p, hpm, hU⟩ := forall2_mem h.uses.controls.pulses hx
      exact hU.overwrite.2 (hst.pulses p hpm).overwrite
    · obtain ⟨p, hpm, hU⟩ := forall2_mem h.uses.controls.pulses hx
      exact zeroUpdate_usable (hu.pulses x hx) (library_basis hU)
    · obtain ⟨p, hpm, hU⟩ := forall2_mem h.uses.controls.params hx
      exact hst.limits p hpm _ _ hU.lower hU.upper
  obtain ⟨o', h1, h2⟩ := mkControls_exists (M := w.lib.M) hu
  obtain rfl : o' = o := by rw [h.hcontrols] at h1; cases h1; rfl
  rw [h.ended] at he
  have hb := BetweenFirst.execute (env := w.env s.vars) (grape_reproducible hS hu (w.draws 0)).repro (.inl hk)
    (by rw [hk]; simp) _ h.noDrift o' h2 () he
  have hcalls := h.calls
  rw [hcalls] at hsb ha
  rcases hb.best with e | ⟨c, f, hl, hv, ⟨x, hx, hs⟩⟩
  · exfalso
    obtain ⟨k, c0, v, g, a1, a2, m1, m2, a3, a4, a5, a6⟩ := hsb
    have hc0 := List.mem_of_getElem? a1
    refine hB.1 c0 (by rw [hcalls]; exact hc0) v (by rw [ha c0 hc0]; exact a2) (a4 _ ?_)
    rw [h.fom]
    unfold finalFoM
    rw [e]
    exact h.start.1
  · obtain ⟨g, k, hsh⟩ := record_shown h.better hl (fun k hk => by
      have := ha (k.ctl, k.ans) (List.mem_map.2 ⟨k, hk, rfl⟩)
      rw [← this]
      exact (seen_value k).symm) hsb
    refine ⟨c.ctl, g, k, ?_, hsh⟩
    rw [h.best]
    unfold bestControls
    simp only [hx, bind, Except.bind]
    unfold Shows at hs
    rcases hg : (gOps w s).getControls (grapeRun w L s cfg o').2.ctl x with e | p
    · rw [hg] at hs; cases hs
    · rw [hg] at hs
      exact hs

/-! ### Examples -/

/-- what is checked in the examples: the pulses in the file at the end and those of the best controls -/
def fileAndBest (r : Option (Py Outcome)) : Option (List (List ℚ) × Option (List (List ℚ))) :=
  match r with
  | some (.ok r) => match r.saved r.calls.length with
    | .ok (some t) => some (["p"].filterMap fun k => match t.lookup k with | some (.row u) => some u | _ => none,
        match r.best with | .ok c => some c.pulses | .error _ => none)
    | _ => none
  | _ => none

/-- In the first one the fourth and the fifth call have the same value. -/
example : fileAndBest (optimize (exAround 0) exProgram) = some ([[2, 2, 2]], some [[2, 2, 2]]) ∧
    fileAndBest (optimizeGrape exGrapeAround exGrapeLib (exGrapeProgram 3)) = some ([[0, 1 / 12, 1 / 8]], some [[0, 1 / 12, 1 / 8]]) := by
  decide +kernel

end QuOCS

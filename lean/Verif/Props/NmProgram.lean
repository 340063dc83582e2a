/-
Property C111, continued: whole optimizations with DirectSearch and Nelder-Mead.
-/
import Verif.Props.NmReference
import Verif.Props.SearchCalls
import Verif.Lemmas.Made

set_option linter.unusedSectionVars false
set_option linter.unusedVariables false

namespace QuOCS

variable {w : Surroundings} {d : PDict} {r : Outcome} {n : ℕ}

/-- The calls of the user's function are the evaluations of the published Nelder-Mead method with factors `p` and start vertices `start`:
call number `k` is made at the point `xs[k]` (brought into the limits), which is the point that the method asks for after the points and
values before; `fs` are the figures of merit, negated for a maximization. A call without figure of merit is the last one. -/
def FollowsNelderMead (d : PDict) (lo hi : Vec ℚ n) (p : NmRef.Factors ℚ) (start : Fin (n + 1) → Vec ℚ n) (calls : List Seen) : Prop :=
  ∃ (xs : List (Vec ℚ n)) (fs : List ℚ), xs.length = calls.length ∧ ∀ (k : ℕ) (c : Seen), calls[k]? = some c →
    ∃ x, xs[k]? = some x ∧ CallAt lo hi x c.1 ∧ NmRef.Asks p start none ((xs.zip fs).take k) x ∧
      (∀ f v, c.value = some f → ToMinimize d f v → fs[k]? = some v) ∧ (c.value = none → k + 1 = calls.length)

/-! ### Proofs -/

theorem zip_fst_snd {α β : Type} (e : List (α × β)) (ys : List α) : (e.map Prod.fst ++ ys).zip (e.map Prod.snd) = e := by
  induction e with
  | nil => simp
  | cons a e ih => simp [ih]

theorem follows_of_gives {fuel : ℕ} {c : NmCfg ℚ ℚ n} {start : Fin (n + 1) → Vec ℚ n} {m : ℤ} {mx : Bool} (hmx : mx = true ↔ Maximizes d)
    (ha : IsArgsort c.argsort) (hd : c.driftMinutes = 0) {lo hi : Vec ℚ n} {l : List (Call (Vec ℚ n) (ControlsOut ℚ) ℚ)}
    (h : (nmRun c fuel start).Gives (StopLaws m) (dirMul mx) (CallAt lo hi) l) :
    FollowsNelderMead d lo hi (publishedFactors c.adaptive n) start (l.map fun k => (k.ctl, k.ans)) := by
  obtain ⟨evs, m', e1, e2, l1, tail, hp, hl, rfl, he, hf, ht⟩ := h
  obtain ⟨k1, k2⟩ := nm_reference ha hp hl
  have hdn : driftNumber c = none := by unfold driftNumber; rw [hd]; rfl
  rw [hdn] at k1 k2
  have hlen := hf.length_eq
  have hasks : ∀ k x f, e1[k]? = some (x, f) → NmRef.Asks (publishedFactors c.adaptive n) start none (e1.take k) x := by
    intro k x f hk
    have hkl : k < e1.length := (List.getElem?_eq_some_iff.1 hk).1
    have hk' : (evals evs)[k]? = some (x, f) := by rw [he, List.getElem?_append_left hkl]; exact hk
    obtain ⟨pre, it, post, h1, h2⟩ := evals_split hk'
    have h3 : NmRef.Asks _ _ _ (evals pre) x := k1 _ _ _ _ h1
    rw [h2, he, List.take_append_of_le_length hkl.le] at h3
    exact h3
  have hmin : ∀ f v, ToMinimize d f v → v = dirMul mx f := by
    intro f v hv
    unfold dirMul
    split
    · exact hv.1 (hmx.1 ‹_›)
    · exact hv.2 fun h => absurd (hmx.2 h) ‹_›
  have hfirst : ∀ (ys : List (Vec ℚ n)) k c', (l1.map fun k => (k.ctl, k.ans))[k]? = some c' →
      ∃ x, (e1.map Prod.fst ++ ys)[k]? = some x ∧ CallAt lo hi x c'.1 ∧
        NmRef.Asks (publishedFactors c.adaptive n) start none (((e1.map Prod.fst ++ ys).zip (e1.map Prod.snd)).take k) x ∧
        (∀ f v, Seen.value c' = some f → ToMinimize d f v → (e1.map Prod.snd)[k]? = some v) ∧ Seen.value c' ≠ none := by
    intro ys k c' hc'
    rw [List.getElem?_map, Option.map_eq_some_iff] at hc'
    obtain ⟨q, hq, rfl⟩ := hc'
    have hkl : k < l1.length := (List.getElem?_eq_some_iff.1 hq).1
    have hke : k < e1.length := by rw [hlen]; exact hkl
    obtain ⟨b1, f, b2, b3⟩ : CallAt lo hi e1[k].1 q.ctl ∧ ∃ f, q.value = some f ∧ e1[k].2 = dirMul mx f := by
      have := (List.forall₂_iff_get.1 hf).2 k hke hkl
      simp only [List.get_eq_getElem] at this
      rw [(List.getElem?_eq_some_iff.1 hq).2] at this
      exact this
    have hg : e1[k]? = some (e1[k].1, e1[k].2) := List.getElem?_eq_getElem hke
    refine ⟨e1[k].1, ?_, b1, ?_, ?_, ?_⟩
    · rw [List.getElem?_append_left (by simpa using hke), List.getElem?_map, hg]; rfl
    · have hz : ((e1.map Prod.fst ++ ys).zip (e1.map Prod.snd)).take k = e1.take k := by
        rw [zip_fst_snd]
      rw [hz]
      exact hasks k _ _ hg
    · intro f' v hv hm
      rw [seen_value, b2] at hv
      cases hv
      rw [hmin _ _ hm, List.getElem?_map, hg, ← b3]; rfl
    · rw [seen_value, b2]; simp
  rcases ht with rfl | ⟨rfl, x, it, kk, q, rfl, rfl, hb, hv⟩
  · refine ⟨e1.map Prod.fst, e1.map Prod.snd, by simp [hlen], fun k c' hc' => ?_⟩
    rw [List.append_nil] at hc'
    obtain ⟨x, h1, h2, h3, h4, h5⟩ := hfirst [] k c' hc'
    rw [List.append_nil] at h1 h3
    exact ⟨x, h1, h2, h3, h4, fun h => absurd h h5⟩
  · refine ⟨e1.map Prod.fst ++ [x], e1.map Prod.snd, by simp [hlen], fun k c' hc' => ?_⟩
    by_cases hkl : k < l1.length
    · rw [List.map_append, List.getElem?_append_left (by simpa using hkl)] at hc'
      obtain ⟨y, h1, h2, h3, h4, h5⟩ := hfirst [x] k c' hc'
      exact ⟨y, h1, h2, h3, h4, fun h => absurd h h5⟩
    · have hk : k = l1.length := by
        have := (List.getElem?_eq_some_iff.1 hc').1
        simp only [List.length_map, List.length_append, List.length_cons, List.length_nil] at this
        omega
      subst hk
      have hcq : c' = (q.ctl, q.ans) := by
        rw [List.map_append, List.getElem?_append_right (by simp)] at hc'
        simpa using hc'.symm
      subst hcq
      refine ⟨x, ?_, hb, ?_, ?_, fun _ => by simp⟩
      · rw [← hlen, List.getElem?_append_right (by simp)]; simp
      · rw [zip_fst_snd, ← hlen, List.take_length]
        have h3 : NmRef.Asks _ _ _ (evals evs) x := k2.1
        rw [he, List.append_nil] at h3
        exact h3
      · intro f v hf'
        rw [seen_value, hv] at hf'
        cases hf'

/-- **C111.** A direct search over parameters with Nelder-Mead calls the user's function exactly at the points of the published Nelder-Mead
method (with the usual factors, or the adaptive ones if so set in the dictionary), from the start vertices around the initial values with the
start sizes in the dictionary, where the values are the figures of merit of the calls, negated for a maximization. -/
theorem C111_program (h : optimize w d = some (.ok r)) (hp : PlainControls w.lib d) (hs : SingleMeasurements d) (hd : IsDirectSearch d)
    {x0 size lo hi : Vec ℚ n} (ho : OnlyParameters d x0 size lo hi) (hm : SearchesWith d "NelderMead") (hsort : w.num.Sorts)
    {adaptive : Bool}
    (ha : adaptive = false ↔ IsFalse (setting d ["algorithm_settings", "dsm_settings", "general_settings", "is_adaptive"] (.bool false))) :
    ∃ (start : Fin (n + 1) → Vec ℚ n), simplexCreation w.sqrt x0 size (w.draws 0) = .ok (List.ofFn start) ∧
      FollowsNelderMead d lo hi (publishedFactors adaptive n) start r.calls := by
  obtain ⟨sim, h1, s, cfg, dsm, h2, h3, h4, h5, _, h6, h7, hmx, l, hl, hg⟩ := direct_search_follows h hp hs hd ho hm
  unfold SearchSettings.dsm at h2
  rw [h5 rfl] at h2
  obtain rfl := Option.some.inj h2
  have had : truthy s.method.adaptive = adaptive := by
    rw [h4.adaptive]
    have := truthy_false_iff (setting d ["algorithm_settings", "dsm_settings", "general_settings", "is_adaptive"] (.bool false))
    rw [← ha] at this
    revert this
    cases truthy _ <;> cases adaptive <;> simp
  have hlen : sim.length = n + 1 := by
    unfold simplexCreation at h1
    split at h1
    · cases h1
    · cases h1; simp
  refine ⟨fun i => sim[i], ?_, ?_⟩
  · rw [h1]
    congr 1
    exact List.ext_getElem (by simp [hlen]) fun i i1 i2 => by rw [List.getElem_ofFn]; rfl
  · rw [hl, ← had]
    unfold nelderMead at hg
    rw [dif_pos hlen] at hg
    exact follows_of_gives hmx (fun f => hsort _ f) h6 hg

/-- The hypotheses are met by an optimization whose calls are in `exDirectProgram_nelder_mead`. -/
example {w : Surroundings} {r : Outcome} (hsort : w.num.Sorts) (h : optimize w (exDirectProgram "NelderMead") = some (.ok r)) :
    ∃ start, simplexCreation w.sqrt ![1 / 3] ![1 / 2] (w.draws 0) = .ok (List.ofFn start) ∧
      FollowsNelderMead (exDirectProgram "NelderMead") ![-1] ![2] (publishedFactors false 1) start r.calls :=
  have ⟨h1, h2, h3, h4, h5⟩ := exDirectProgram_meets w.lib "NelderMead"
  C111_program h h1 h2 h3 h4 h5 hsort (adaptive := false) ⟨fun _ => .inr (.inl rfl), fun _ => rfl⟩

example : exParamAround.num.Sorts := exCmaLib_sorts

end QuOCS

/-
Invariants of the Nelder-Mead search.
-/
import Mathlib.Algebra.Order.Field.Basic
import Mathlib.Tactic.Module
import Mathlib.Tactic.Ring
import Mathlib.Tactic.Linarith
import Verif.Lemmas.Strat
import Verif.Spec.NelderMead

set_option linter.unusedSectionVars false

namespace QuOCS
namespace NM

variable {K F : Type} {n : ℕ} [Field K] [LinearOrder K] [Field F] [LinearOrder F] [IsStrictOrderedRing F]

/-- what the calls of the search satisfy -/
def G (c : NmCfg K F n) (sim0 : Fin (n + 1) → Vec K n) (h : List (Ev K (Vec K n) F)) : Op K (Vec K n) F → Prop
  | .eval x _ => NmTrial (nmCoef c.adaptive n) sim0 h x
  | .checkNM _ fs calls => calls = objectiveCalls h ∧ ∃ f : Fin (n + 1) → F, fs = List.ofFn f ∧ Monotone f ∧
      (c.driftMinutes ≤ 0 → (∃ x, (x, f 0) ∈ evals h) ∧ ∀ p ∈ evals h, f 0 ≤ p.2)
  | .setConv b => h = [] ∧ b = false
  | _ => True

variable {c : NmCfg K F n} {sim0 : Fin (n + 1) → Vec K n} {m : ℤ} {h h' : List (Ev K (Vec K n) F)}
  {s s' : NmState K F n}

/-- The later history `h'` contains no further evaluation. -/
structure Same (h h' : List (Ev K (Vec K n) F)) : Prop where
  evals : evals h' = evals h
  calls : objectiveCalls h' = objectiveCalls h
  reset : ResetOnce h → ResetOnce h'
  trig : ∀ m, Triggered m h → Triggered m h'

theorem Same.snoc {e : Ev K (Vec K n) F} (h1 : Ev.evaluated e = none) (h2 : Ev.isObjective e = false)
    (h3 : ∀ b, e.1 ≠ .setConv b) : Same h (h ++ [e]) := by
  refine ⟨?_, ?_, fun hr => hr.snoc h3, fun m ht => ht.append _⟩
  · rw [evals_append]; simp [QuOCS.evals, h1]
  · rw [objectiveCalls_append]; simp [objectiveCalls, h2]

theorem Same.trans {h'' : List (Ev K (Vec K n) F)} (a : Same h h') (b : Same h' h'') : Same h h'' :=
  ⟨b.evals.trans a.evals, b.calls.trans a.calls, fun r => b.reset (a.reset r), fun m t => b.trig m (a.trig m t)⟩

/-- bookkeeping -/
structure Core (h : List (Ev K (Vec K n) F)) (s : NmState K F n) : Prop where
  reset : ResetOnce h
  calls : s.calls = objectiveCalls h
  big : n + 1 ≤ objectiveCalls h

/-- the vertices are evaluated points, with their values -/
structure Good (c : NmCfg K F n) (h : List (Ev K (Vec K n) F)) (s : NmState K F n) : Prop where
  vert : ∀ i, Evaluated h (s.sim i)
  pairs : c.driftMinutes ≤ 0 → ∀ i, (s.sim i, s.fsim i) ∈ evals h

theorem Good.same (g : Good c h s) (sm : Same h h') : Good c h' s :=
  ⟨fun i => by unfold Evaluated; rw [sm.evals]; exact g.vert i, fun hd i => by rw [sm.evals]; exact g.pairs hd i⟩

/-- after a move of the simplex, before sorting -/
structure Moved (c : NmCfg K F n) (m : ℤ) (h : List (Ev K (Vec K n) F)) (s : NmState K F n) : Prop where
  core : Core h s
  values : c.driftMinutes ≤ 0 → ∀ i, ∃ x, (x, s.fsim i) ∈ evals h
  best : c.driftMinutes ≤ 0 → ∀ p ∈ evals h, ∃ i, s.fsim i ≤ p.2
  good : Good c h s ∨ (Triggered m h ∧
    (c.driftMinutes ≤ 0 → ∀ i, (s.sim i, s.fsim i) ∈ evals h ∨ s.fsim 0 ≤ s.fsim i ∧ i ≠ 0))

/-- after sorting -/
structure Ready (c : NmCfg K F n) (m : ℤ) (h : List (Ev K (Vec K n) F)) (s : NmState K F n) : Prop where
  core : Core h s
  mono : Monotone s.fsim
  values : c.driftMinutes ≤ 0 → ∃ x, (x, s.fsim 0) ∈ evals h
  best : c.driftMinutes ≤ 0 → ∀ p ∈ evals h, s.fsim 0 ≤ p.2
  good : Good c h s ∨ Triggered m h
  pair : c.driftMinutes ≤ 0 → KeepsLeader c.argsort → (s.sim 0, s.fsim 0) ∈ evals h

theorem Ready.same (r : Ready c m h s) (sm : Same h h') : Ready c m h' s where
  core := ⟨sm.reset r.core.reset, by rw [sm.calls]; exact r.core.calls, by rw [sm.calls]; exact r.core.big⟩
  mono := r.mono
  values hd := by rw [sm.evals]; exact r.values hd
  best hd := by rw [sm.evals]; exact r.best hd
  good := r.good.imp (fun g => g.same sm) (fun t => sm.trig m t)
  pair hd hl := by rw [sm.evals]; exact r.pair hd hl

theorem Moved.sort (ha : IsArgsort c.argsort) (r : Moved c m h s) : Ready c m h (nmSort c s) where
  core := ⟨r.core.reset, r.core.calls, r.core.big⟩
  mono := ha s.fsim
  values hd := r.values hd _
  best hd p hp := by
    obtain ⟨i, hi⟩ := r.best hd p hp
    have := ha s.fsim (Fin.zero_le ((c.argsort s.fsim).symm i))
    simp only [Function.comp_apply, Equiv.apply_symm_apply] at this
    exact this.trans hi
  good := by
    rcases r.good with g | g
    · exact .inl ⟨fun i => g.vert _, fun hd i => g.pairs hd _⟩
    · exact .inr g.1
  pair hd hl := by
    rcases r.good with g | g
    · exact g.pairs hd _
    · rcases g.2 hd (c.argsort s.fsim 0) with hp | ⟨hle, hne⟩
      · exact hp
      · exfalso
        apply hne
        apply hl
        intro i
        have := ha s.fsim (Fin.zero_le ((c.argsort s.fsim).symm i))
        simp only [Function.comp_apply, Equiv.apply_symm_apply] at this
        exact hle.trans this

theorem Core.snoc_eval (x : Vec K n) (it : ℕ) (f : F) (r : Core h s) :
    Core (h ++ [⟨.eval x it, f⟩]) { s with calls := s.calls + 1 } :=
  ⟨r.reset.snoc (fun b => by simp), by rw [objectiveCalls_append, objectiveCalls_eval, ← r.calls],
    by rw [objectiveCalls_append]; have := r.big; omega⟩

theorem Core.same (r : Core h s) (sm : Same h h') : Core h' s :=
  ⟨sm.reset r.reset, by rw [sm.calls]; exact r.calls, by rw [sm.calls]; exact r.big⟩

abbrev A (m : ℤ) : List (Ev K (Vec K n) F) → Prop := StopLaws m

theorem wp_eval {x : Vec K n} {Q : List (Ev K (Vec K n) F) → F × NmState K F n → Prop}
    (hG : NmTrial (nmCoef c.adaptive n) sim0 h x)
    (hQ : ∀ f, Q (h ++ [⟨.eval x s.iterations, f⟩]) (f, { s with calls := s.calls + 1 })) :
    (nmEval x s).wp (G c sim0) (A m) Q h := by
  unfold nmEval
  rw [Strat.wp_bind, Strat.wp_call]
  exact ⟨hG, fun f _ => hQ f⟩

theorem Same.readConv (b : Bool) : Same h (h ++ [⟨.readConv, b⟩]) := .snoc rfl rfl (fun b => by simp)

/-- reading the convergence flag -/
theorem wp_conv {α : Type} {Q : List (Ev K (Vec K n) F) → α → Prop} {t e : Strat K (Vec K n) F α}
    (ht : t.wp (G c sim0) (A m) Q (h ++ [⟨.readConv, true⟩]))
    (he : A m (h ++ [⟨.readConv, false⟩]) → e.wp (G c sim0) (A m) Q (h ++ [⟨.readConv, false⟩])) :
    (do if ← nmConv then t else e : Strat K (Vec K n) F α).wp (G c sim0) (A m) Q h := by
  unfold nmConv
  rw [Strat.wp_bind, Strat.wp_call]
  refine ⟨trivial, fun r hr => ?_⟩
  cases r
  · exact he hr
  · exact ht

theorem triggered_true (h : List (Ev K (Vec K n) F)) : Triggered m (h ++ [⟨.readConv, true⟩]) :=
  ⟨⟨.readConv, true⟩, by simp, rfl⟩

/-- invariant of the shrinking loop with the rows `js` still to do; `h0` is the history when shrinking began -/
structure ShrinkInv (c : NmCfg K F n) (js : List (Fin (n + 1))) (h : List (Ev K (Vec K n) F)) (s : NmState K F n) :
    Prop where
  core : Core h s
  good : Good c h s
  best : c.driftMinutes ≤ 0 → ∀ p ∈ evals h, ∃ i, i ∉ js ∧ s.fsim i ≤ p.2
  lead : ∀ i ∈ js, s.fsim 0 ≤ s.fsim i

theorem evaluated_append {x : Vec K n} (hx : Evaluated h x) (g : List (Ev K (Vec K n) F)) : Evaluated (h ++ g) x := by
  obtain ⟨f, hf⟩ := hx
  exact ⟨f, by rw [evals_append]; exact List.mem_append_left _ hf⟩

theorem shrink_wp (js : List (Fin (n + 1))) (h0 : ∀ j ∈ js, j ≠ 0) (hn : js.Nodup)
    (h : List (Ev K (Vec K n) F)) (s : NmState K F n) (inv : ShrinkInv c js h s) :
    (nmShrink (nmCoef c.adaptive n) js s).wp (G c sim0) (A m)
      (fun h' s' => Moved c m h' s' ∧ objectiveCalls h' ≤ objectiveCalls h + js.length) h := by
  induction js generalizing h s with
  | nil =>
    refine ⟨⟨inv.core, fun hd i => ⟨_, inv.good.pairs hd i⟩, fun hd p hp => ?_, .inl inv.good⟩, by simp⟩
    obtain ⟨i, -, hi⟩ := inv.best hd p hp
    exact ⟨i, hi⟩
  | cons j js ih =>
    have hj0 : j ≠ 0 := h0 j (by simp)
    have hjs : j ∉ js := (List.nodup_cons.1 hn).1
    unfold nmShrink
    set x := s.sim 0 + (nmCoef c.adaptive n : NmCoef K).sigma • (s.sim j - s.sim 0) with hx
    refine wp_conv ?_ ?_
    · refine (Strat.wp_pure _ _ _).2 ⟨⟨?_, ?_, ?_, .inr ⟨triggered_true _, ?_⟩⟩, ?_⟩
      · exact ⟨(inv.core.same (.readConv true)).reset, (inv.core.same (.readConv true)).calls,
          (inv.core.same (.readConv true)).big⟩
      · intro hd i
        rw [(Same.readConv true).evals]
        exact ⟨_, inv.good.pairs hd i⟩
      · intro hd p hp
        rw [(Same.readConv true).evals] at hp
        obtain ⟨i, -, hi⟩ := inv.best hd p hp
        exact ⟨i, hi⟩
      · intro hd i
        rw [(Same.readConv true).evals]
        by_cases hij : i = j
        · subst hij
          exact .inr ⟨inv.lead i (by simp), hj0⟩
        · left
          simp only [Function.update_of_ne hij]
          exact inv.good.pairs hd i
      · rw [(Same.readConv true).calls]; omega
    · intro _
      rw [Strat.wp_bind]
      refine wp_eval (.shrink _ _ (evaluated_append (inv.good.vert 0) _) (evaluated_append (inv.good.vert j) _)) ?_
      intro f
      set h1 := h ++ [(⟨.readConv, false⟩ : Ev K (Vec K n) F)] with hh1
      have sm : Same h h1 := .readConv false
      have ev : evals (h1 ++ [(⟨.eval x s.iterations, f⟩ : Ev K (Vec K n) F)]) = evals h ++ [(x, f)] := by
        rw [evals_append, sm.evals]; rfl
      refine Strat.wp_mono (ih (fun i hi => h0 i (by simp [hi])) (List.nodup_cons.1 hn).2 _ _ ?_) ?_
      · constructor
        · exact ((inv.core.same sm).snoc_eval x s.iterations f |> fun r => ⟨r.reset, r.calls, r.big⟩)
        · constructor
          · intro i
            by_cases hij : i = j
            · subst hij
              refine ⟨f, ?_⟩
              simp only [Function.update_self]
              exact ev ▸ (by simp)
            · simp only [Function.update_of_ne hij]
              exact evaluated_append (evaluated_append (inv.good.vert i) _) _
          · intro hd i
            show (_, _) ∈ evals (h1 ++ [(⟨.eval x s.iterations, f⟩ : Ev K (Vec K n) F)])
            rw [ev]
            by_cases hij : i = j
            · subst hij
              simp
            · simp only [Function.update_of_ne hij]
              exact List.mem_append_left _ (inv.good.pairs hd i)
        · intro hd p hp
          have hp' : p ∈ evals h ++ [(x, f)] := ev ▸ hp
          rcases List.mem_append.1 hp' with hp | hp
          · obtain ⟨i, hi1, hi2⟩ := inv.best hd p hp
            have hij : i ≠ j := fun e => hi1 (by simp [e])
            exact ⟨i, fun hm => hi1 (by simp [hm]), by simpa [Function.update_of_ne hij] using hi2⟩
          · simp only [List.mem_singleton] at hp
            exact ⟨j, hjs, by simp [hp]⟩
        · intro i hi
          have hij : i ≠ j := fun e => hjs (e ▸ hi)
          simpa [Function.update_of_ne hij, Function.update_of_ne hj0.symm] using inv.lead i (by simp [hi])
      · intro h' s' hp
        refine ⟨hp.1, hp.2.trans ?_⟩
        have : objectiveCalls (h1 ++ [(⟨.eval x s.iterations, f⟩ : Ev K (Vec K n) F)]) = objectiveCalls h + 1 := by
          rw [objectiveCalls_append, sm.calls]; rfl
        simp only [List.length_cons]
        have e : objectiveCalls (h1 ++ [(⟨.eval x s.iterations, f⟩ : Ev K (Vec K n) F)]) + js.length
          = objectiveCalls h + 1 + js.length := by rw [this]
        exact le_of_eq_of_le e (by omega)

/-! ### one move -/

theorem shrinkRows_ne (n : ℕ) : ∀ j ∈ shrinkRows n, j ≠ 0 := by
  intro j hj
  obtain ⟨i, -, rfl⟩ := List.mem_map.1 hj
  exact Fin.succ_ne_zero i

theorem shrinkRows_nodup (n : ℕ) : (shrinkRows n).Nodup :=
  (List.nodup_finRange n).map (Fin.succ_injective n)

theorem shrinkRows_length (n : ℕ) : (shrinkRows n).length = n := by simp [shrinkRows]

theorem nmBar_eq (w : Fin (n + 1) → Vec K n) : nmBar w = centroid w := by
  funext j
  simp only [nmBar, centroid, Pi.smul_apply, Finset.sum_apply, smul_eq_mul]
  rw [div_eq_mul_inv, one_div, mul_comm]

/-- the state at the beginning of a move -/
structure Start (c : NmCfg K F n) (h : List (Ev K (Vec K n) F)) (s : NmState K F n) : Prop where
  core : Core h s
  good : Good c h s
  mono : Monotone s.fsim
  best : c.driftMinutes ≤ 0 → ∀ p ∈ evals h, s.fsim 0 ≤ p.2

/-- what a move guarantees; `h0`, `s0` at its beginning -/
structure MovePost (c : NmCfg K F n) (m : ℤ) (h0 : List (Ev K (Vec K n) F)) (s0 : NmState K F n)
    (h : List (Ev K (Vec K n) F)) (r : Bool × NmState K F n) : Prop where
  core : Core h r.2
  cnt : objectiveCalls h ≤ objectiveCalls h0 + (n + 2)
  brk : r.1 = true → r.2.sim = s0.sim ∧ r.2.fsim = s0.fsim ∧ Triggered m h ∧
    ∃ x it f, h = h0 ++ [⟨.eval x it, f⟩, ⟨.readConv, true⟩]
  cont : r.1 = false → Moved c m h r.2

/-- A vertex is replaced by a newly evaluated point; `h` is the history with the new evaluations of this move. -/
theorem Start.replace {x : Vec K n} {f : F} (st : Start c h s) {s1 : NmState K F n} (hs1 : s1.sim = s.sim)
    (hf1 : s1.fsim = s.fsim) (hc : Core h' s1) (hsub : ∀ p ∈ evals h, p ∈ evals h') (hx : (x, f) ∈ evals h')
    (hb : c.driftMinutes ≤ 0 → ∀ p ∈ evals h', f ≤ p.2 ∨ (s.fsim 0 ≤ p.2 ∧ (Fin.last n) ≠ 0)) :
    Moved c m h' (nmReplace x f s1) := by
  have hg : Good c h' (nmReplace x f s1) := by
    constructor
    · intro i
      by_cases hi : i = Fin.last n
      · subst hi; exact ⟨f, by simpa [nmReplace] using hx⟩
      · obtain ⟨g, hg⟩ := st.good.vert i
        exact ⟨g, by simpa [nmReplace, Function.update_of_ne hi, hs1] using hsub _ hg⟩
    · intro hd i
      by_cases hi : i = Fin.last n
      · subst hi; simpa [nmReplace] using hx
      · simpa [nmReplace, Function.update_of_ne hi, hs1, hf1] using hsub _ (st.good.pairs hd i)
  refine ⟨⟨hc.reset, hc.calls, hc.big⟩, fun hd i => ⟨_, hg.pairs hd i⟩, fun hd p hp => ?_, .inl hg⟩
  rcases hb hd p hp with hb | ⟨hb, hne⟩
  · exact ⟨Fin.last n, by simpa [nmReplace] using hb⟩
  · exact ⟨0, by simpa [nmReplace, Function.update_of_ne hne.symm, hf1] using hb⟩

/-- The break after the reflection. -/
theorem Start.break (st : Start c h s) (x : Vec K n) (f : F) :
    MovePost c m h s (h ++ [⟨.eval x s.iterations, f⟩] ++ [⟨.readConv, true⟩])
      (true, { s with calls := s.calls + 1 }) := by
  have hc := (st.core.snoc_eval x s.iterations f).same (.readConv true)
  refine ⟨hc, ?_, fun _ => ⟨rfl, rfl, triggered_true _, x, s.iterations, f, by simp⟩, fun h => by cases h⟩
  rw [(Same.readConv true).calls, objectiveCalls_append, objectiveCalls_eval]; omega

/-- history after the reflection, the test of the stopping criteria and a second evaluation -/
theorem second_hist (x y : Vec K n) (it jt : ℕ) (f g : F) :
    evals (h ++ [(⟨.eval x it, f⟩ : Ev K (Vec K n) F)] ++ [⟨.readConv, false⟩] ++ [⟨.eval y jt, g⟩]) =
      evals h ++ [(x, f), (y, g)] ∧
    objectiveCalls (h ++ [(⟨.eval x it, f⟩ : Ev K (Vec K n) F)] ++ [⟨.readConv, false⟩] ++ [⟨.eval y jt, g⟩]) =
      objectiveCalls h + 2 := by
  refine ⟨?_, ?_⟩
  · rw [evals_append, (Same.readConv false).evals, evals_append]; simp
  · rw [objectiveCalls_append, (Same.readConv false).calls, objectiveCalls_append]; simp

theorem Start.second_core (st : Start c h s) (x y : Vec K n) (f g : F) :
    Core (h ++ [⟨.eval x s.iterations, f⟩] ++ [⟨.readConv, false⟩] ++ [⟨.eval y s.iterations, g⟩])
      { s with calls := s.calls + 1 + 1 } :=
  ((st.core.snoc_eval x s.iterations f).same (.readConv false)).snoc_eval y s.iterations g

theorem Start.vert_append (st : Start c h s) (g : List (Ev K (Vec K n) F)) : ∀ i, Evaluated (h ++ g) (s.sim i) :=
  fun i => evaluated_append (st.good.vert i) g

theorem expand_eq (t : K) (b l : Vec K n) : (1 + t) • b - t • l = b + t • (b - l) := by module

theorem inside_eq (t : K) (b l : Vec K n) : (1 - t) • b + t • l = b - t • (b - l) := by module

/-- expansion -/
theorem expand_wp (st : Start c h s) {xr : Vec K n} {fxr : F} (hlt : fxr < s.fsim 0) :
    (nmExpand (nmCoef c.adaptive n) (nmBar s.sim) xr fxr { s with calls := s.calls + 1 }).wp (G c sim0) (A m)
      (MovePost c m h s) (h ++ [⟨.eval xr s.iterations, fxr⟩]) := by
  unfold nmExpand
  refine wp_conv (st.break xr fxr) fun _ => ?_
  rw [Strat.wp_bind]
  refine wp_eval ?_ fun fxe => ?_
  · rw [expand_eq, nmBar_eq]
    refine .expand _ ?_
    rw [List.append_assoc]; exact st.vert_append _
  · set xe := (1 + (nmCoef c.adaptive n : NmCoef K).rho * (nmCoef c.adaptive n).chi) • nmBar s.sim -
      ((nmCoef c.adaptive n : NmCoef K).rho * (nmCoef c.adaptive n).chi) • s.sim (Fin.last n) with hxe
    obtain ⟨ev, ca⟩ := second_hist (h := h) xr xe s.iterations s.iterations fxr fxe
    have core := st.second_core xr xe fxr fxe
    have hsub : ∀ p ∈ evals h, p ∈ evals h ++ [(xr, fxr), (xe, fxe)] := fun p hp => List.mem_append_left _ hp
    rw [← ev] at hsub
    have hmem : ∀ p ∈ [(xr, fxr), (xe, fxe)],
        p ∈ evals (h ++ [(⟨.eval xr s.iterations, fxr⟩ : Ev K (Vec K n) F)] ++ [⟨.readConv, false⟩] ++
          [⟨.eval xe s.iterations, fxe⟩]) := fun p hp => by rw [ev]; exact List.mem_append_right _ hp
    by_cases hlt' : fxe < fxr
    · simp only [hlt', if_true]
      have mv : Moved c m _ (nmReplace xe fxe { s with calls := s.calls + 1 + 1 }) :=
        st.replace rfl rfl core hsub (hmem (xe, fxe) (by simp)) (fun hd p hp => by
          rw [ev] at hp
          rcases List.mem_append.1 hp with hp | hp
          · exact .inl (by linarith [st.best hd p hp])
          · simp only [List.mem_cons, List.not_mem_nil, or_false] at hp
            rcases hp with rfl | rfl
            · exact .inl hlt'.le
            · exact .inl le_rfl)
      exact ⟨mv.core, by rw [ca]; omega, fun h => (by cases h), fun _ => mv⟩
    · simp only [hlt', if_false]
      have mv : Moved c m _ (nmReplace xr fxr { s with calls := s.calls + 1 + 1 }) :=
        st.replace rfl rfl core hsub (hmem (xr, fxr) (by simp)) (fun hd p hp => by
          rw [ev] at hp
          rcases List.mem_append.1 hp with hp | hp
          · exact .inl (by linarith [st.best hd p hp])
          · simp only [List.mem_cons, List.not_mem_nil, or_false] at hp
            rcases hp with rfl | rfl
            · exact .inl le_rfl
            · exact .inl (not_lt.1 hlt'))
      exact ⟨mv.core, by rw [ca]; omega, fun h => (by cases h), fun _ => mv⟩

/-- shrinking after an unsuccessful contraction -/
theorem Start.shrink (st : Start c h s) {x y : Vec K n} {f g : F} (hf : s.fsim 0 ≤ f) (hg : s.fsim 0 ≤ g) :
    (do let s ← nmShrink (nmCoef c.adaptive n) (shrinkRows n) { s with calls := s.calls + 1 + 1 }
        pure (false, s) : Strat K (Vec K n) F (Bool × NmState K F n)).wp (G c sim0) (A m) (MovePost c m h s)
      (h ++ [⟨.eval x s.iterations, f⟩] ++ [⟨.readConv, false⟩] ++ [⟨.eval y s.iterations, g⟩]) := by
  obtain ⟨ev, ca⟩ := second_hist (h := h) x y s.iterations s.iterations f g
  have core := st.second_core x y f g
  rw [Strat.wp_bind]
  refine Strat.wp_mono (shrink_wp _ (shrinkRows_ne n) (shrinkRows_nodup n) _ _ ?_) ?_
  · refine ⟨core, ⟨fun i => ?_, fun hd i => ?_⟩, fun hd p hp => ⟨0, fun hm => shrinkRows_ne n 0 hm rfl, ?_⟩,
      fun i _ => st.mono (Fin.zero_le i)⟩
    · rw [List.append_assoc, List.append_assoc]; exact st.vert_append _ i
    · rw [ev]; exact List.mem_append_left _ (st.good.pairs hd i)
    · rw [ev] at hp
      rcases List.mem_append.1 hp with hp | hp
      · exact st.best hd p hp
      · simp only [List.mem_cons, List.not_mem_nil, or_false] at hp
        rcases hp with rfl | rfl
        · exact hf
        · exact hg
  · intro h' s' ⟨mv, hle⟩
    refine (Strat.wp_pure _ _ _).2 ⟨mv.core, ?_, fun h => (by cases h), fun _ => mv⟩
    rw [ca, shrinkRows_length] at hle
    omega

/-- what a successful contraction does -/
theorem Start.contracted (st : Start c h s) {x y : Vec K n} {f g : F} (hne : Fin.last n ≠ 0) (hf : s.fsim 0 ≤ f) :
    MovePost c m h s (h ++ [⟨.eval x s.iterations, f⟩] ++ [⟨.readConv, false⟩] ++ [⟨.eval y s.iterations, g⟩])
      (false, nmReplace y g { s with calls := s.calls + 1 + 1 }) := by
  obtain ⟨ev, ca⟩ := second_hist (h := h) x y s.iterations s.iterations f g
  have mv : Moved c m (h ++ [⟨.eval x s.iterations, f⟩] ++ [⟨.readConv, false⟩] ++ [⟨.eval y s.iterations, g⟩])
      (nmReplace y g { s with calls := s.calls + 1 + 1 }) := by
    refine st.replace rfl rfl (st.second_core x y f g) ?_ ?_ ?_
    · intro p hp; rw [ev]; exact List.mem_append_left _ hp
    · rw [ev]; simp
    · intro hd p hp
      rw [ev] at hp
      rcases List.mem_append.1 hp with hp | hp
      · exact .inr ⟨st.best hd p hp, hne⟩
      · simp only [List.mem_cons, List.not_mem_nil, or_false] at hp
        rcases hp with rfl | rfl
        · exact .inr ⟨hf, hne⟩
        · exact .inl le_rfl
  exact ⟨mv.core, by rw [ca]; omega, fun h => (by cases h), fun _ => mv⟩

theorem outside_wp (st : Start c h s) {xr : Vec K n} {fxr : F} (hne : Fin.last n ≠ 0) (hf : s.fsim 0 ≤ fxr) :
    (nmOutside (nmCoef c.adaptive n) (nmBar s.sim) fxr { s with calls := s.calls + 1 }).wp (G c sim0) (A m)
      (MovePost c m h s) (h ++ [⟨.eval xr s.iterations, fxr⟩]) := by
  unfold nmOutside
  refine wp_conv (st.break xr fxr) fun _ => ?_
  rw [Strat.wp_bind]
  refine wp_eval ?_ fun fxc => ?_
  · rw [expand_eq, nmBar_eq]
    refine .outside _ ?_
    rw [List.append_assoc]; exact st.vert_append _
  · by_cases hle : fxc ≤ fxr
    · simp only [hle, if_true]
      exact st.contracted hne hf
    · simp only [hle, if_false]
      exact st.shrink hf (hf.trans (not_le.1 hle).le)

theorem inside_wp (st : Start c h s) {xr : Vec K n} {fxr : F} (hne : Fin.last n ≠ 0) (hf : s.fsim 0 ≤ fxr) :
    (nmInside (nmCoef c.adaptive n) (nmBar s.sim) { s with calls := s.calls + 1 }).wp (G c sim0) (A m)
      (MovePost c m h s) (h ++ [⟨.eval xr s.iterations, fxr⟩]) := by
  unfold nmInside
  refine wp_conv (st.break xr fxr) fun _ => ?_
  rw [Strat.wp_bind]
  refine wp_eval ?_ fun fxc => ?_
  · rw [inside_eq, nmBar_eq]
    refine .inside _ ?_
    rw [List.append_assoc]; exact st.vert_append _
  · by_cases hle : fxc < s.fsim (Fin.last n)
    · simp only [hle, if_true]
      exact st.contracted hne hf
    · simp only [hle, if_false]
      exact st.shrink hf ((st.mono (Fin.zero_le _)).trans (not_lt.1 hle))

theorem contract_wp (st : Start c h s) {xr : Vec K n} {fxr : F} (hf : s.fsim 0 ≤ fxr) :
    (nmContract (nmCoef c.adaptive n) (nmBar s.sim) xr fxr { s with calls := s.calls + 1 }).wp (G c sim0) (A m)
      (MovePost c m h s) (h ++ [⟨.eval xr s.iterations, fxr⟩]) := by
  unfold nmContract
  rw [Strat.wp_bind]
  rcases n with _ | n
  · exact (Strat.wp_fail _ _ _).2 trivial
  · have hne : Fin.last (n + 1) ≠ 0 := (Fin.last_pos).ne'
    show Strat.wp _ _ (if _ then _ else _) _ _
    split
    · have mv : Moved c m (h ++ [⟨.eval xr s.iterations, fxr⟩]) (nmReplace xr fxr { s with calls := s.calls + 1 }) := by
        refine st.replace rfl rfl (st.core.snoc_eval _ _ _) ?_ ?_ ?_
        · intro p hp; rw [evals_append]; exact List.mem_append_left _ hp
        · rw [evals_append]; simp
        · intro hd p hp
          rw [evals_append] at hp
          rcases List.mem_append.1 hp with hp | hp
          · exact .inr ⟨st.best hd p hp, hne⟩
          · simp only [evals_eval, List.mem_singleton] at hp
            exact .inl (by rw [hp])
      exact ⟨mv.core, by rw [objectiveCalls_append, objectiveCalls_eval]; omega, fun h => (by cases h), fun _ => mv⟩
    · split
      · exact outside_wp st hne hf
      · exact inside_wp st hne hf

theorem move_wp (st : Start c h s) :
    (nmMove (nmCoef c.adaptive n) s).wp (G c sim0) (A m) (MovePost c m h s) h := by
  unfold nmMove
  simp only []
  rw [Strat.wp_bind]
  refine wp_eval ?_ fun fxr => ?_
  · rw [expand_eq, nmBar_eq]
    exact .reflect _ st.good.vert
  · by_cases hlt : fxr < s.fsim 0
    · simp only [hlt, if_true]
      exact expand_wp st hlt
    · simp only [hlt, if_false]
      exact contract_wp st (not_lt.1 hlt)

/-! ### the loop -/

/-- number of calls a drift compensation may cost -/
def driftCost (c : NmCfg K F n) : ℕ := if c.driftMinutes > 0 then c.driftAverage + 1 else 0

theorem sum_wp (j : ℕ) (acc : F) (r : Ready c m h s) (g : Good c h s) (hd : c.driftMinutes > 0) :
    (nmSum j acc s).wp (G c sim0) (A m) (fun h' q => q.2 = { s with calls := q.2.calls } ∧
      Ready c m h' q.2 ∧ Good c h' q.2 ∧ objectiveCalls h' = objectiveCalls h + j) h := by
  induction j generalizing h s acc with
  | zero => exact (Strat.wp_pure _ _ _).2 ⟨rfl, r, g, rfl⟩
  | succ j ih =>
    unfold nmSum
    rw [Strat.wp_bind]
    refine wp_eval (.again _ (g.vert 0)) fun f => ?_
    have g' : Good c (h ++ [⟨.eval (s.sim 0) s.iterations, f⟩]) { s with calls := s.calls + 1 } :=
      ⟨fun i => evaluated_append (g.vert i) _, fun h => absurd hd (not_lt.2 h)⟩
    refine Strat.wp_mono (ih (acc + f) ?_ g') ?_
    · exact ⟨r.core.snoc_eval _ _ _, r.mono, fun h => absurd hd (not_lt.2 h), fun h => absurd hd (not_lt.2 h),
        .inl g', fun h => absurd hd (not_lt.2 h)⟩
    · rintro h' q ⟨h1, h2, h3, h4⟩
      refine ⟨h1, h2, h3, ?_⟩
      rw [h4, objectiveCalls_append, objectiveCalls_eval]
      omega

theorem driftDo_wp (r : Ready c m h s) (g : Good c h s) (hd : c.driftMinutes > 0) :
    (nmDriftDo c s).wp (G c sim0) (A m) (fun h' s' => Ready c m h' s' ∧
      objectiveCalls h' = objectiveCalls h + (c.driftAverage + 1)) h := by
  unfold nmDriftDo
  simp only []
  rw [Strat.wp_bind]
  refine Strat.wp_mono (sum_wp c.driftAverage 0 r g hd) ?_
  rintro h1 ⟨f, s1⟩ ⟨e1, r1, g1, c1⟩
  simp only at e1 r1 g1
  by_cases h0 : c.driftAverage = 0
  · simp only [h0, if_true]
    exact (Strat.wp_fail _ _ _).2 trivial
  · simp only [h0, if_false]
    rw [Strat.wp_bind, Strat.wp_call]
    refine ⟨trivial, fun t _ => ?_⟩
    rw [Strat.wp_bind, Strat.wp_call]
    refine ⟨trivial, fun v _ => (Strat.wp_pure _ _ _).2 ⟨?_, ?_⟩⟩
    · have sm : Same h1 (h1 ++ [⟨.now, t⟩]) := .snoc rfl rfl (fun b => by simp)
      refine ⟨⟨?_, ?_, ?_⟩, ?_, fun h => absurd hd (not_lt.2 h), fun h => absurd hd (not_lt.2 h), .inl ⟨?_, ?_⟩,
        fun h => absurd hd (not_lt.2 h)⟩
      · exact (sm.reset r1.core.reset).snoc (fun b => by simp)
      · rw [objectiveCalls_append, objectiveCalls_drift, sm.calls, ← r1.core.calls]
      · rw [objectiveCalls_append, sm.calls]; have := r1.core.big; omega
      · intro i j hij
        have hm : ∀ i j, i ≤ j → s.fsim i ≤ s.fsim j := fun i j hij => r.mono hij
        have hfs : s1.fsim = s.fsim := by rw [e1]
        simp only [hfs]
        by_cases hi : i = 0
        · subst hi
          by_cases hj : j = 0
          · simp [hj]
          · simp only [if_true, hj, if_false]
            linarith [hm 0 j (Fin.zero_le j)]
        · have hj : j ≠ 0 := fun hj => hi (by rw [hj] at hij; exact Fin.le_zero_iff.1 hij)
          simp only [hi, hj, if_false]
          linarith [hm i j hij]
      · intro i
        exact evaluated_append (evaluated_append (g1.vert i) _) _
      · exact fun h => absurd hd (not_lt.2 h)
    · rw [objectiveCalls_append, objectiveCalls_drift,
        (Same.snoc (h := h1) (e := ⟨.now, t⟩) rfl rfl (fun b => by simp)).calls, c1]
      omega

theorem drift_wp (r : Ready c m h s) :
    (nmDrift c s).wp (G c sim0) (A m) (fun h' s' => Ready c m h' s' ∧
      objectiveCalls h' ≤ objectiveCalls h + driftCost c) h := by
  unfold nmDrift driftCost
  by_cases hd : c.driftMinutes > 0
  · rw [if_pos hd, if_pos hd]
    refine wp_conv ((Strat.wp_pure _ _ _).2 ⟨r.same (.readConv true), ?_⟩) fun hA => ?_
    · rw [(Same.readConv true).calls]; omega
    · have g : Good c h s := r.good.resolve_right fun ht => by cases hA.conv r.core.reset ht
      rw [Strat.wp_bind, Strat.wp_call]
      refine ⟨trivial, fun t _ => ?_⟩
      have sm : Same h (h ++ [⟨.readConv, false⟩] ++ [⟨.now, t⟩]) :=
        (Same.readConv false).trans (.snoc rfl rfl (fun b => by simp))
      split
      · refine Strat.wp_mono (driftDo_wp (r.same sm) (g.same sm) hd) ?_
        rintro h' s' ⟨h1, h2⟩
        refine ⟨h1, ?_⟩
        rw [h2, sm.calls]
      · exact (Strat.wp_pure _ _ _).2 ⟨r.same sm, by rw [sm.calls]; omega⟩
  · rw [if_neg hd, if_neg hd]
    exact (Strat.wp_pure _ _ _).2 ⟨r, le_rfl⟩

theorem finish_wp (r : Ready c m h s) :
    (nmFinish s).wp (G c sim0) (A m) (fun h' s' => Ready c m h' s' ∧ objectiveCalls h' = objectiveCalls h ∧
      (Triggered m h' ∨ (objectiveCalls h : ℤ) < m)) h := by
  have key : ∀ h', Same h h' → (do
      Strat.call (.checkNM (simplexSize s.sim) (List.ofFn s.fsim) s.calls)
      pure { s with iterations := s.iterations + 1 } : Strat K (Vec K n) F (NmState K F n)).wp (G c sim0) (A m)
        (fun h' s' => Ready c m h' s' ∧ objectiveCalls h' = objectiveCalls h ∧
          (Triggered m h' ∨ (objectiveCalls h : ℤ) < m)) h' := by
    intro h' sm
    rw [Strat.wp_bind, Strat.wp_call]
    refine ⟨⟨by rw [sm.calls]; exact r.core.calls, s.fsim, rfl, r.mono, fun hd => ⟨?_, ?_⟩⟩, fun u _ => ?_⟩
    · rw [sm.evals]; exact r.values hd
    · rw [sm.evals]; exact r.best hd
    · have sm' : Same h (h' ++ [⟨.checkNM (simplexSize s.sim) (List.ofFn s.fsim) s.calls, u⟩]) :=
        sm.trans (.snoc rfl rfl (fun b => by simp))
      have r' := r.same sm'
      refine (Strat.wp_pure _ _ _).2 ⟨⟨⟨r'.core.reset, r'.core.calls, r'.core.big⟩, r'.mono, r'.values, r'.best,
        r'.good.imp (fun g => ⟨g.vert, g.pairs⟩) id, r'.pair⟩, sm'.calls, ?_⟩
      by_cases hm : m ≤ (objectiveCalls h : ℤ)
      · left
        refine ⟨_, List.mem_append_right _ (List.mem_singleton.2 rfl), ?_⟩
        show m ≤ (s.calls : ℤ)
        rw [r.core.calls]; exact hm
      · exact .inr (not_le.1 hm)
  unfold nmFinish
  simp only []
  rw [Strat.wp_bind, Strat.wp_call]
  refine ⟨trivial, fun b _ => ?_⟩
  cases b
  · simp only [Bool.false_eq_true, if_false]
    rw [Strat.wp_bind, Strat.wp_call]
    exact ⟨trivial, fun u _ => key _ ((Same.snoc rfl rfl (fun b => by simp)).trans (.snoc rfl rfl (fun b => by simp)))⟩
  · simp only [if_true]
    exact key _ (.snoc rfl rfl (fun b => by simp))

/-- bound on the number of calls of the objective -/
def callBound (c : NmCfg K F n) (m : ℤ) : ℤ := max (m - 1) (n + 1) + (n + 2) + driftCost c

/-- number of calls at the loop head -/
def LoopCnt (c : NmCfg K F n) (m : ℤ) (h : List (Ev K (Vec K n) F)) : Prop :=
  (objectiveCalls h : ℤ) ≤ max (m - 1) (n + 1) ∨ (Triggered m h ∧ (objectiveCalls h : ℤ) ≤ callBound c m)

theorem LoopCnt.bound (l : LoopCnt c m h) : (objectiveCalls h : ℤ) ≤ callBound c m := by
  rcases l with l | l
  · unfold callBound; omega
  · exact l.2

/-- what holds when the loop has ended -/
structure Final (c : NmCfg K F n) (m : ℤ) (h : List (Ev K (Vec K n) F)) (s : NmState K F n) : Prop where
  calls : s.calls = objectiveCalls h
  bound : (objectiveCalls h : ℤ) ≤ callBound c m
  pair : c.driftMinutes ≤ 0 → KeepsLeader c.argsort → (s.sim 0, s.fsim 0) ∈ evals h
  most : c.driftMinutes ≤ 0 → ∀ p ∈ (evals h).dropLast, s.fsim 0 ≤ p.2
  all : c.driftMinutes ≤ 0 → ¬ StoppedAfterEval (n + 1) h → ∀ p ∈ evals h, s.fsim 0 ≤ p.2
  value : c.driftMinutes ≤ 0 → ∃ x, (x, s.fsim 0) ∈ evals h

theorem Final.same_end {e : Ev K (Vec K n) F} (f : Final c m h s) (h1 : Ev.evaluated e = none)
    (h2 : Ev.isObjective e = false) (h3 : ∀ b, e.1 ≠ .setConv b) : Final c m (h ++ [e]) s := by
  have sm : Same h (h ++ [e]) := .snoc h1 h2 h3
  refine ⟨by rw [sm.calls]; exact f.calls, by rw [sm.calls]; exact f.bound, fun a b => by rw [sm.evals]; exact f.pair a b,
    fun a => by rw [sm.evals]; exact f.most a, fun a hs => ?_, fun a => by rw [sm.evals]; exact f.value a⟩
  rw [sm.evals]
  refine f.all a fun hst => hs ?_
  obtain ⟨pre, x, it, g, post, rfl, hk⟩ := hst
  exact ⟨pre, x, it, g, post ++ [e], by simp, hk⟩

theorem loop_wp (ha : IsArgsort c.argsort) (fuel : ℕ) (r : Ready c m h s) (l : LoopCnt c m h) :
    (nmLoop c (nmCoef c.adaptive n) fuel s).wp (G c sim0) (A m) (Final c m) h := by
  induction fuel generalizing h s with
  | zero => exact (Strat.wp_fail _ _ _).2 trivial
  | succ fuel ih =>
    unfold nmLoop
    refine wp_conv ?_ fun hA => ?_
    · have r' := r.same (.readConv true)
      refine (Strat.wp_pure _ _ _).2 ⟨r'.core.calls, ?_, r'.pair, fun hd p hp => r'.best hd p (List.dropLast_subset _ hp),
        fun hd _ => r'.best hd, r'.values⟩
      rw [(Same.readConv true).calls]; exact l.bound
    · have nt : ¬ Triggered m h := fun ht => by cases hA.conv r.core.reset ht
      have g : Good c h s := r.good.resolve_right nt
      have sm : Same h (h ++ [⟨.readConv, false⟩]) := .readConv false
      have r' := r.same sm
      have st : Start c (h ++ [⟨.readConv, false⟩]) s := ⟨r'.core, g.same sm, r'.mono, r'.best⟩
      have l' : (objectiveCalls h : ℤ) ≤ max (m - 1) (n + 1) := l.resolve_right fun ht => nt ht.1
      rw [Strat.wp_bind]
      refine Strat.wp_mono (move_wp st) ?_
      rintro h1 ⟨brk, s1⟩ mp
      have cnt := mp.cnt
      rw [sm.calls] at cnt
      cases brk
      · simp only [Bool.false_eq_true, if_false]
        rw [Strat.wp_bind]
        refine Strat.wp_mono (drift_wp ((mp.cont rfl).sort ha)) ?_
        rintro h2 s2 ⟨r2, c2⟩
        rw [Strat.wp_bind]
        refine Strat.wp_mono (finish_wp r2) ?_
        rintro h3 s3 ⟨r3, c3, t3⟩
        refine ih r3 ?_
        unfold LoopCnt callBound
        rcases t3 with t3 | t3
        · right; refine ⟨t3, ?_⟩; rw [c3]; omega
        · left; rw [c3]; omega
      · simp only [if_true]
        obtain ⟨e1, e2, -, x, it, f, rfl⟩ := mp.brk rfl
        simp only at e1 e2
        have ev : evals (h ++ [(⟨.readConv, false⟩ : Ev K (Vec K n) F)] ++ [⟨.eval x it, f⟩, ⟨.readConv, true⟩]) =
            evals h ++ [(x, f)] := by
          rw [evals_append, sm.evals]; rfl
        refine (Strat.wp_pure _ _ _).2 ⟨mp.core.calls, ?_, ?_, ?_, ?_, ?_⟩
        · unfold callBound; omega
        · intro hd hl
          rw [ev, e1, e2]; exact List.mem_append_left _ (r.pair hd hl)
        · intro hd p hp
          rw [ev, List.dropLast_concat] at hp
          rw [e2]; exact r.best hd p hp
        · intro hd hs
          refine absurd ⟨_, x, it, f, [], rfl, ?_⟩ hs
          rw [sm.calls]; exact r.core.big
        · intro hd
          obtain ⟨y, hy⟩ := r.values hd
          exact ⟨y, by rw [ev, e2]; exact List.mem_append_left _ hy⟩

/-! ### the start simplex -/

/-- while the start simplex is evaluated, rows `0, ..., j-1` are done -/
structure InitInv (c : NmCfg K F n) (sim0 : Fin (n + 1) → Vec K n) (j : ℕ) (h : List (Ev K (Vec K n) F))
    (s : NmState K F n) : Prop where
  reset : ResetOnce h
  calls : s.calls = objectiveCalls h
  cnt : objectiveCalls h = j
  sim : s.sim = sim0
  pairs : ∀ i : Fin (n + 1), (i : ℕ) < j → (s.sim i, s.fsim i) ∈ evals h
  best : ∀ p ∈ evals h, ∃ i : Fin (n + 1), (i : ℕ) < j ∧ s.fsim i ≤ p.2

theorem init_wp (ks : List (Fin (n + 1))) (j : ℕ) (hks : ks.map Fin.val = List.range' j ks.length)
    (hj : j + ks.length = n + 1) (inv : InitInv c sim0 j h s) :
    (nmInit ks s).wp (G c sim0) (A m) (InitInv c sim0 (n + 1)) h := by
  induction ks generalizing h s j with
  | nil =>
    have : j = n + 1 := by simpa using hj
    subst this
    exact (Strat.wp_pure _ _ _).2 inv
  | cons k ks ih =>
    simp only [List.map_cons, List.length_cons, List.range'_succ, List.cons.injEq] at hks
    obtain ⟨hk, hks⟩ := hks
    unfold nmInit
    rw [Strat.wp_bind]
    refine wp_eval ?_ fun f => ?_
    · rw [inv.sim]; exact .start k (by rw [inv.cnt, hk])
    · have ev : evals (h ++ [(⟨.eval (s.sim k) s.iterations, f⟩ : Ev K (Vec K n) F)]) = evals h ++ [(s.sim k, f)] := by
        rw [evals_append]; rfl
      refine ih (j + 1) hks (by simp only [List.length_cons] at hj; omega) ?_
      refine ⟨inv.reset.snoc (fun b => by simp), ?_, ?_, inv.sim, ?_, ?_⟩
      · rw [objectiveCalls_append, objectiveCalls_eval, ← inv.calls]
      · rw [objectiveCalls_append, objectiveCalls_eval, inv.cnt]
      · intro i hi
        rw [ev]
        by_cases hik : i = k
        · subst hik; simp
        · have : (i : ℕ) < j := by
            have : (i : ℕ) ≠ k := fun e => hik (Fin.ext e)
            omega
          simp only [Function.update_of_ne hik]
          exact List.mem_append_left _ (inv.pairs i this)
      · intro p hp
        rw [ev] at hp
        rcases List.mem_append.1 hp with hp | hp
        · obtain ⟨i, hi, hle⟩ := inv.best p hp
          have hik : i ≠ k := fun e => by subst e; omega
          exact ⟨i, by omega, by simpa [Function.update_of_ne hik] using hle⟩
        · simp only [List.mem_singleton] at hp
          exact ⟨k, by omega, by simp [hp]⟩

/-- what holds at the end of the whole search -/
structure RunPost (c : NmCfg K F n) (m : ℤ) (h : List (Ev K (Vec K n) F)) (r : DsmResult (Vec K n) F) : Prop where
  calls : r.nfev = objectiveCalls h
  bound : (objectiveCalls h : ℤ) ≤ callBound c m
  pair : c.driftMinutes ≤ 0 → KeepsLeader c.argsort → (r.xOpt, r.fMin) ∈ evals h
  most : c.driftMinutes ≤ 0 → ∀ p ∈ (evals h).dropLast, r.fMin ≤ p.2
  all : c.driftMinutes ≤ 0 → ¬ StoppedAfterEval (n + 1) h → ∀ p ∈ evals h, r.fMin ≤ p.2
  value : c.driftMinutes ≤ 0 → ∃ x, (x, r.fMin) ∈ evals h

theorem run_wp (ha : IsArgsort c.argsort) (fuel : ℕ) :
    (nmRun c fuel sim0).wp (G c sim0) (A m) (RunPost c m) [] := by
  unfold nmRun
  rw [Strat.wp_bind, Strat.wp_call]
  refine ⟨⟨rfl, rfl⟩, fun u _ => ?_⟩
  rw [Strat.wp_bind, Strat.wp_call]
  refine ⟨trivial, fun t0 _ => ?_⟩
  rw [Strat.wp_bind, Strat.wp_call]
  refine ⟨trivial, fun t _ => ?_⟩
  rw [Strat.wp_bind]
  have h0 : ResetOnce ([] ++ [(⟨.setConv false, u⟩ : Ev K (Vec K n) F)] ++ [⟨.now, t0⟩] ++ [⟨.now, t⟩]) :=
    ⟨[⟨.now, t0⟩, ⟨.now, t⟩], rfl, fun b => by simp⟩
  refine Strat.wp_mono (init_wp (List.finRange (n + 1)) 0 ?_ (by simp) ⟨h0, rfl, rfl, rfl, fun i hi => by omega, ?_⟩) ?_
  · rw [List.map_coe_finRange_eq_range, List.length_finRange, List.range_eq_range']
  · intro p hp; simp [evals, Ev.evaluated] at hp
  · intro h s inv
    rw [Strat.wp_bind]
    have mv : Moved c m h s := by
      refine ⟨⟨inv.reset, inv.calls, inv.cnt.ge⟩, fun _ i => ⟨_, inv.pairs i i.2⟩, fun _ p hp => ?_,
        .inl ⟨fun i => ⟨_, inv.pairs i i.2⟩, fun _ i => inv.pairs i i.2⟩⟩
      obtain ⟨i, -, hi⟩ := inv.best p hp
      exact ⟨i, hi⟩
    have rd := mv.sort ha
    refine Strat.wp_mono (loop_wp (s := { nmSort c s with iterations := 1 }) ha fuel
      ⟨⟨rd.core.reset, rd.core.calls, rd.core.big⟩, rd.mono, rd.values, rd.best,
        rd.good.imp (fun g => ⟨g.vert, g.pairs⟩) id, rd.pair⟩ ?_) ?_
    · left; rw [inv.cnt]; push_cast; omega
    · intro h' s' f
      rw [Strat.wp_bind, Strat.wp_call]
      refine ⟨trivial, fun rs _ => (Strat.wp_pure _ _ _).2 ?_⟩
      have f' := f.same_end (e := ⟨.reason, rs⟩) rfl rfl (fun b => by simp)
      exact ⟨f'.calls, f'.bound, f'.pair, f'.most, f'.all, f'.value⟩

end NM
end QuOCS

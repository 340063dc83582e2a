/-
The durations of the pulses, and the controls delivered by a controls object.
-/
import Verif.Spec.EndToEnd
import Verif.Lemmas.Controls
import Verif.Lemmas.Dump
import Verif.Props.Controls

set_option linter.unusedSectionVars false
set_option linter.unusedVariables false

namespace QuOCS

section
variable {K : Type} [Field K] [LinearOrder K] [IsStrictOrderedRing K]

/-- `t` was constructed from `d`; only the value of the optimized scale has changed since. -/
structure TimeOf (d : TimeDict K) (t : TimeObj K) : Prop where
  opt : t.isOptimization = d.isOptimization
  time : t.time = d.initialValue
  var : t.timeVariation = d.upper - d.lower
  lower : t.alpha.lower = (d.lower - d.initialValue) / (d.upper - d.lower)
  upper : t.alpha.upper = (d.upper - d.initialValue) / (d.upper - d.lower)
  pos : d.isOptimization = true → d.upper - d.lower ≠ 0

theorem lastNamed_cons (d : TimeDict K) (ds : List (TimeDict K)) (n : String) :
    lastNamed (d :: ds) n = (lastNamed ds n).or (if d.name = n then some d else none) := by
  unfold lastNamed
  rw [List.reverse_cons, List.find?_append]
  congr 1
  by_cases h : d.name = n <;> simp [h]

theorem mkTime_of {d : TimeDict K} {t : TimeObj K} (h : mkTime d = .ok t) : TimeOf d t := by
  unfold mkTime at h
  by_cases hz : (d.isOptimization && decide (d.upper - d.lower = 0)) = true
  · rw [if_pos hz] at h; cases h
  · rw [if_neg hz] at h
    cases h
    refine ⟨rfl, rfl, rfl, rfl, rfl, fun ho h0 => hz ?_⟩
    simp [ho, h0]

theorem mkTimes_of : ∀ (ds : List (TimeDict K)) (acc ts : List (String × TimeObj K)), mkTimes ds acc = .ok ts → ∀ n t,
    ts.lookup n = some t → (∃ d, lastNamed ds n = some d ∧ TimeOf d t) ∨ (lastNamed ds n = none ∧ acc.lookup n = some t)
  | [], acc, ts, h, n, t, ht => by
    cases h
    exact .inr ⟨rfl, ht⟩
  | d :: ds, acc, ts, h, n, t, ht => by
    unfold mkTimes at h
    obtain ⟨t0, h0, h⟩ := py_bind_ok.1 h
    rw [lastNamed_cons]
    rcases mkTimes_of ds _ _ h n t ht with ⟨d', h1, h2⟩ | ⟨h1, h2⟩
    · exact .inl ⟨d', by simp [h1], h2⟩
    · rw [Dump.lookup_dictSet] at h2
      rw [h1]
      by_cases hn : n = d.name
      · subst hn
        rw [if_pos rfl] at h2
        cases h2
        exact .inl ⟨d, by simp, mkTime_of h0⟩
      · rw [if_neg hn] at h2
        rw [if_neg (fun e => hn e.symm)]
        exact .inr ⟨rfl, h2⟩

theorem lookup_forall2 {α : Type} {R : String × α → String × α → Prop} (hR : ∀ a b, R a b → b.1 = a.1) :
    ∀ {l l' : List (String × α)}, List.Forall₂ R l l' → ∀ {n : String} {b : α}, l'.lookup n = some b →
      ∃ a, l.lookup n = some a ∧ ∃ m, R (m, a) (m, b)
  | _, _, .nil, n, b, h => by cases h
  | _, _, .cons (a := (m, a)) (b := (m', b')) h1 h2, n, b, h => by
    have e := hR _ _ h1
    simp only at e
    subst e
    by_cases hn : n = m'
    · subst hn
      simp only [List.lookup_cons_self, Option.some.injEq] at h
      subst h
      exact ⟨a, List.lookup_cons_self, n, h1⟩
    · have hn' : (n == m') = false := by simpa using hn
      simp only [List.lookup, hn'] at h ⊢
      exact lookup_forall2 hR h2 h

/-- one step of `setTimes` -/
structure TimeSet (t t' : TimeObj K) : Prop where
  same : t'.isOptimization = t.isOptimization ∧ t'.time = t.time ∧ t'.timeVariation = t.timeVariation ∧
    t'.alpha.lower = t.alpha.lower ∧ t'.alpha.upper = t.alpha.upper
  limited : t.isOptimization = true → ∃ y, t'.alpha.value = t.alpha.checkLimits y

theorem setTimes_set {x : List K} {ts ts' : List (String × TimeObj K)} (h : setTimes x ts = .ok ts') :
    List.Forall₂ (fun a b => b.1 = a.1 ∧ TimeSet a.2 b.2) ts ts' := by
  unfold setTimes at h
  rw [mapM_ok] at h
  refine List.Forall₂.imp ?_ h
  intro a b hab
  cases ha : a.2.isOptimization with
  | true =>
    simp only [ha, if_true] at hab
    obtain ⟨v, _, hab⟩ := py_bind_ok.1 hab
    obtain ⟨w, hw, hab⟩ := py_bind_ok.1 hab
    rw [py_pure_ok] at hab
    subst hab
    unfold Param.setParameter at hw
    obtain ⟨y, _, hw⟩ := py_bind_ok.1 hw
    rw [py_pure_ok] at hw
    subst hw
    exact ⟨rfl, ⟨ha.symm ▸ rfl, rfl, rfl, rfl, rfl⟩, fun _ => ⟨y, rfl⟩⟩
  | false =>
    simp only [ha, Bool.false_eq_true, if_false] at hab
    rw [py_pure_ok] at hab
    subst hab
    exact ⟨rfl, ⟨rfl, rfl, rfl, rfl, rfl⟩, fun h => by rw [ha] at h; cases h⟩

/-- The times of a controls object come from the user's list. -/
def TimesOf (td : List (TimeDict K)) (ts : List (String × TimeObj K)) : Prop :=
  ∀ n t, ts.lookup n = some t → ∃ d, lastNamed td n = some d ∧ TimeOf d t

theorem TimesOf.set {td : List (TimeDict K)} {ts ts' : List (String × TimeObj K)} {x : List K} (h : TimesOf td ts)
    (hs : setTimes x ts = .ok ts') : TimesOf td ts' := by
  intro n t ht
  obtain ⟨t0, h0, m, hm⟩ := lookup_forall2 (fun a b h => h.1) (setTimes_set hs) ht
  obtain ⟨d, hd, o⟩ := h n t0 h0
  obtain ⟨_, ⟨e1, e2, e3, e4, e5⟩, _⟩ := hm
  simp only at e1 e2 e3 e4 e5
  exact ⟨d, hd, e1.trans o.opt, e2.trans o.time, e3.trans o.var, e4.trans o.lower, e5.trans o.upper, o.pos⟩

theorem selectAt_times {rnd : ℕ → List K} {c c' : Controls K} {i : ℕ} (h : c.selectBasisAt rnd i = .ok c') :
    c'.times = c.times := by
  unfold Controls.selectBasisAt at h
  generalize c.pulses[i]? = o at h
  rcases o with _ | p
  · cases h; rfl
  · dsimp only at h
    by_cases hc : p.basis.isChopped = true
    · rw [if_pos hc] at h
      obtain ⟨p', _, h⟩ := py_bind_ok.1 h
      rw [py_pure_ok] at h
      rw [← h]; rfl
    · rw [if_neg hc] at h
      cases h; rfl

theorem select_times {rnd : ℕ → List K} {c c' : Controls K} (h : c.selectBasis rnd = .ok c') : c'.times = c.times := by
  unfold Controls.selectBasis at h
  generalize List.range c.pulses.length = l at h
  induction l generalizing c with
  | nil => rw [List.foldlM_nil, py_pure_ok] at h; rw [← h]
  | cons i l ih =>
    rw [List.foldlM_cons] at h
    obtain ⟨c1, h1, h⟩ := py_bind_ok.1 h
    rw [ih h, selectAt_times h1]

theorem PulseReach.timeName_eq {M : MathFns K} {d : PulseDict K} {p : Pulse K} (h : PulseReach M d p) :
    p.timeName = d.timeName := by
  induction h with
  | create h =>
    unfold mkPulse at h
    simp only at h
    split at h
    · simp at h
    · simp only [Except.ok.injEq] at h
      subst h; rfl
  | inputs x T _ ih => exact ih
  | get _ h ih =>
    unfold Pulse.getPulse at h
    obtain ⟨v, _, h⟩ := py_bind_ok.1 h
    rw [py_pure_ok] at h
    obtain ⟨rfl, rfl⟩ := Prod.mk.inj h
    exact ih
  | bare _ h ih =>
    unfold Pulse.getBarePulse at h
    obtain ⟨v, _, h⟩ := py_bind_ok.1 h
    rw [py_pure_ok] at h
    obtain ⟨rfl, rfl⟩ := Prod.mk.inj h
    exact ih
  | base _ h ih =>
    unfold Pulse.setBasePulse at h
    obtain ⟨v, _, h⟩ := py_bind_ok.1 h
    split at h
    · rw [py_pure_ok] at h; subst h; exact ih
    · obtain ⟨b, _, h⟩ := py_bind_ok.1 h
      rw [py_pure_ok] at h; subst h; exact ih
  | draw _ h ih =>
    unfold Pulse.drawSuper at h
    obtain ⟨v, _, h⟩ := py_bind_ok.1 h
    rw [py_pure_ok] at h
    subst h
    exact ih
  | index mi _ ih => exact ih

theorem TimesOf.of_reach {M : MathFns K} {pd : List (PulseDict K)} {td : List (TimeDict K)} {rd : List (ParamDict K)}
    {c : Controls K} (h : ControlsReach M pd td rd c) : TimesOf td c.times := by
  induction h with
  | create h =>
    unfold mkControls at h
    obtain ⟨⟨ps, mi⟩, h1, h⟩ := py_bind_ok.1 h
    obtain ⟨ts, h2, h⟩ := py_bind_ok.1 h
    rw [py_pure_ok] at h
    subst h
    intro n t ht
    rcases mkTimes_of _ _ _ h2 n t ht with h | ⟨_, h⟩
    · exact h
    · cases h
  | @select c c' rnd _ h ih => rw [select_times h]; exact ih
  | @get c c' x o _ h ih =>
    obtain ⟨ts, h1, h2, _⟩ := getControls_parts h
    rw [h2]; exact ih.set h1
  | @bare c c' x o _ h ih =>
    unfold Controls.getBare at h
    obtain ⟨ps, _, h⟩ := py_bind_ok.1 h
    rw [py_pure_ok] at h
    obtain ⟨rfl, _⟩ := Prod.mk.inj h
    exact ih
  | @base c c' x _ h ih =>
    unfold Controls.updateBase at h
    obtain ⟨ts, h1, h⟩ := py_bind_ok.1 h
    obtain ⟨_, _, h⟩ := py_bind_ok.1 h
    obtain ⟨_, _, h⟩ := py_bind_ok.1 h
    rw [py_pure_ok] at h
    subst h
    exact ih.set h1

theorem TimeOf.duration {d : TimeDict K} {t t' : TimeObj K} (h : TimeOf d t) (hs : TimeSet t t') :
    AllowedDuration d t'.getTime := by
  obtain ⟨⟨e1, e2, e3, e4, e5⟩, hl⟩ := hs
  unfold TimeObj.getTime
  constructor
  · intro ho
    rw [e1, h.opt, ho, if_neg (by simp), e2, h.time]
  · intro ho
    rw [e1, h.opt, ho, if_pos rfl, e2, e3, h.time, h.var]
    obtain ⟨y, hy⟩ := hl (h.opt.trans ho)
    rw [hy]
    unfold Param.checkLimits
    rw [h.lower, h.upper]
    have hne := h.pos ho
    generalize hmv : d.upper - d.lower = mv at *
    have hle : (d.lower - d.initialValue) / mv ≤ (d.upper - d.initialValue) / mv := by
      have : (d.upper - d.initialValue) / mv = (d.lower - d.initialValue) / mv + 1 := by
        rw [← div_self hne, ← add_div]; congr 1; linarith
      rw [this]; linarith
    generalize ha : min (max ((d.lower - d.initialValue) / mv) y) ((d.upper - d.initialValue) / mv) = a
    have h1 : (d.lower - d.initialValue) / mv ≤ a := ha ▸ le_min (le_max_left _ _) hle
    have h2 : a ≤ (d.upper - d.initialValue) / mv := ha ▸ min_le_right _ _
    have c1 : (d.lower - d.initialValue) / mv * mv = d.lower - d.initialValue := div_mul_cancel₀ _ hne
    have c2 : (d.upper - d.initialValue) / mv * mv = d.upper - d.initialValue := div_mul_cancel₀ _ hne
    rcases lt_or_gt_of_ne hne with hneg | hpos
    · have k1 := mul_le_mul_of_nonpos_right h1 hneg.le
      have k2 := mul_le_mul_of_nonpos_right h2 hneg.le
      rw [c1] at k1; rw [c2] at k2
      exact ⟨(min_le_right _ _).trans (by linarith), le_trans (by linarith) (le_max_left _ _)⟩
    · have k1 := mul_le_mul_of_nonneg_right h1 hpos.le
      have k2 := mul_le_mul_of_nonneg_right h2 hpos.le
      rw [c1] at k1; rw [c2] at k2
      exact ⟨(min_le_left _ _).trans (by linarith), le_trans (by linarith) (le_max_right _ _)⟩

theorem dictGet_ok {β : Type} {d : List (String × β)} {k : String} {v : β} (h : dictGet d k = .ok v) : d.lookup k = some v := by
  unfold dictGet at h
  rcases hl : d.lookup k with _ | w
  · rw [hl] at h; cases h
  · rw [hl] at h; cases h; rfl

/-- Every set of controls delivered by a reachable controls object is admissible. -/
theorem delivered_admissible {M : MathFns K} {pd : List (PulseDict K)} {td : List (TimeDict K)} {rd : List (ParamDict K)}
    {c c' : Controls K} {x : List K} {o : ControlsOut K} (hr : ControlsReach M pd td rd c)
    (h : c.getControls M x = .ok (c', o)) : Admissible pd td rd o := by
  have hi := CInv.of_reach hr
  have h13 := C13_all_delivered_pulses_within_limits hr h
  have h16 := C16_all_delivered_pulses_have_bins_samples hr h
  obtain ⟨l22, h22⟩ := C22_parameters_within_limits hr h
  obtain ⟨ts, h1, h2, h3, h4, h5, h6, h7⟩ := getControls_parts h
  have hlen : c.pulses.length = pd.length := hi.reach.length_eq.symm
  have hl3 := h3.length_eq
  rw [List.length_zip] at hl3
  have hg : o.timegrids.length = c'.pulses.length := by rw [h5, List.length_map]
  refine ⟨⟨by omega, by omega, l22⟩, ?_, ?_⟩
  · intro i d u t hd hu ht
    have hid : i < pd.length := (List.getElem?_eq_some_iff.1 hd).1
    have hd' : pd[i] = d := (List.getElem?_eq_some_iff.1 hd).2
    have hiu : i < o.pulses.length := (List.getElem?_eq_some_iff.1 hu).1
    have hu' : o.pulses[i] = u := (List.getElem?_eq_some_iff.1 hu).2
    have hit : i < o.timegrids.length := (List.getElem?_eq_some_iff.1 ht).1
    have ht' : o.timegrids[i] = t := (List.getElem?_eq_some_iff.1 ht).2
    refine ⟨?_, ?_, ?_⟩
    · have := (List.forall₂_iff_get.1 h13).2 i hid hiu
      simpa only [List.get_eq_getElem, hd', hu'] using this
    · have := (List.forall₂_iff_get.1 h16).2 i hid (by rw [List.length_zip]; omega)
      simp only [List.get_eq_getElem, hd', List.getElem_zip, hu', ht'] at this
      exact fun a b => (this a b).1
    · obtain ⟨v, tm, _, g2, g3⟩ := (List.forall₂_iff_get.1 h3).2 i (by omega) (by rw [List.length_zip]; omega)
      have hp := (List.forall₂_iff_get.1 hi.reach).2 i hid (by omega)
      simp only [List.get_eq_getElem, List.getElem_zip, hd'] at g2 g3 hp
      obtain ⟨_, _, _, _, hb, _, _, hn⟩ := hp.fields
      have hq : t = linspace0 tm.getTime d.binsNumber := by
        rw [← ht']
        unfold Pulse.getPulse at g3
        obtain ⟨w, _, g3⟩ := py_bind_ok.1 g3
        rw [py_pure_ok] at g3
        have e := (Prod.mk.inj g3).1
        simp only [h5, List.getElem_map]
        rw [← e]
        simp only [Pulse.setInputs, hb]
      obtain ⟨t0, k1, m, k2⟩ := lookup_forall2 (fun a b h => h.1) (setTimes_set h1) (dictGet_ok g2)
      obtain ⟨time, k3, k4⟩ := TimesOf.of_reach hr _ _ k1
      have hname : c.pulses[i].timeName = d.timeName := hp.timeName_eq
      refine ⟨by rw [hq, linspace0_length], time, tm.getTime, hname ▸ k3, k4.duration k2.2, ?_⟩
      intro j hj
      rw [hq]
      simp [linspace0, List.getElem?_range hj]
  · intro j d v hd hv
    obtain ⟨y, w, _, a2, a3, _⟩ := h22 j d hd
    rw [a2] at hv
    cases hv
    exact a3

end
end QuOCS

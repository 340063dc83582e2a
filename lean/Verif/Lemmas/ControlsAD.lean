/-
The automatic-differentiation variant of the controls delivers the same pulses, filled up with zeros.
-/
import Verif.Model.ControlsAD
import Verif.Lemmas.Times
import Verif.Lemmas.ControlsRepro

set_option linter.unusedSectionVars false
set_option linter.unusedVariables false

namespace QuOCS

section
variable {K : Type} [Field K] [LinearOrder K] [IsStrictOrderedRing K]
variable {M : MathFns K} {pd : List (PulseDict K)} {td : List (TimeDict K)} {rd : List (ParamDict K)}

/-- The rows `o'` belong to the lists `o`. -/
structure Padded (pd : List (PulseDict K)) (o o' : ControlsOut K) : Prop where
  parameters : o'.parameters = o.parameters
  pulses : List.Forall₂ (fun (e : PulseDict K × List K) row => padRow (width pd) e.1.binsNumber e.2 = .ok row)
    (pd.zip o.pulses) o'.pulses
  timegrids : List.Forall₂ (fun (e : PulseDict K × List K) row => padRow (width pd) e.1.binsNumber e.2 = .ok row)
    (pd.zip o.timegrids) o'.timegrids

theorem adRow_ok {w : ℕ} {x : List K} {ts : List (String × TimeObj K)} {p : Pulse K} {r : Pulse K × List K × List K} :
    adRow M w x ts p = .ok r ↔ ∃ u, (do
      let v ← gather x p.ctrlList
      let t ← dictGet ts p.timeName
      p.getPulse M v t.getTime) = .ok (r.1, u) ∧ padRow w r.1.binsNumber u = .ok r.2.1 ∧
      padRow w r.1.binsNumber r.1.timeGrid = .ok r.2.2 := by
  obtain ⟨q, u', g'⟩ := r
  constructor
  · intro h
    unfold adRow at h
    obtain ⟨v, hv, h⟩ := py_bind_ok.1 h
    obtain ⟨t, ht, h⟩ := py_bind_ok.1 h
    obtain ⟨⟨q1, u⟩, hq, h⟩ := py_bind_ok.1 h
    obtain ⟨a, ha, h⟩ := py_bind_ok.1 h
    obtain ⟨b, hb, h⟩ := py_bind_ok.1 h
    rw [py_pure_ok] at h
    cases h
    exact ⟨u, by rw [hv]; show (do let t ← dictGet ts p.timeName; p.getPulse M v t.getTime) = _; rw [ht]; exact hq, ha, hb⟩
  · rintro ⟨u, h, ha, hb⟩
    obtain ⟨v, hv, h⟩ := py_bind_ok.1 h
    obtain ⟨t, ht, h⟩ := py_bind_ok.1 h
    unfold adRow
    rw [hv]
    simp only [bind, Except.bind, ht, h, ha, hb, pure, Except.pure]

theorem foldl_max_le (l : List ℕ) (a : ℕ) : a ≤ l.foldl max a := by
  induction l generalizing a with
  | nil => exact le_rfl
  | cons b l ih => exact le_trans (le_max_left _ _) (ih _)

theorem le_foldl_max {l : List ℕ} {a b : ℕ} (h : b ∈ l) : b ≤ l.foldl max a := by
  induction l generalizing a with
  | nil => cases h
  | cons c l ih =>
    rcases List.mem_cons.1 h with rfl | h
    · exact le_trans (le_max_right _ _) (foldl_max_le _ _)
    · exact ih h

theorem ControlsReach.maxBins_eq {c : Controls K} (hr : ControlsReach M pd td rd c) : c.maxBins = width pd := by
  unfold Controls.maxBins width
  congr 1
  exact (forall2_map_eq (CInv.of_reach hr).reach fun d p h => h.fields.2.2.2.2.1)

theorem pulses_of_reach {c c' : Controls K} {x : List K} {o : ControlsOut K} (hr : ControlsReach M pd td rd c)
    (h : c.getControls M x = .ok (c', o)) : List.Forall₂ (PulseReach M) pd c'.pulses :=
  (CInv.of_reach (ControlsReach.get hr h)).reach

theorem forall2_zip_left {α β γ : Type} {R : α → β → Prop} {S : β → γ → Prop} :
    ∀ {l : List α} {m : List β} {n : List γ}, List.Forall₂ R l m → List.Forall₂ S m n →
      List.Forall₂ (fun a c => ∃ b, R a b ∧ S b c) l n
  | _, _, _, .nil, .nil => .nil
  | _, _, _, .cons h1 h2, .cons k1 k2 => .cons ⟨_, h1, k1⟩ (forall2_zip_left h2 k2)

theorem pad_aux {α β : Type} {R : α → β → Prop} {w : ℕ} (b : α → ℕ) (b' : β → ℕ) (hb : ∀ a c, R a c → b' c = b a) :
    ∀ {l : List α} {m : List β} {us rows : List (List K)}, List.Forall₂ R l m → us.length = m.length →
    (List.Forall₂ (fun (e : α × List K) row => padRow w (b e.1) e.2 = .ok row) (l.zip us) rows ↔
      List.Forall₂ (fun (e : β × List K) row => padRow w (b' e.1) e.2 = .ok row) (m.zip us) rows)
  | _, _, [], _, .nil, _ => by simp
  | _, _, u :: us, rows, .cons (a := a) (b := c) h1 h2, hl => by
    have hl' : us.length = _ := Nat.succ.inj hl
    simp only [List.zip_cons_cons]
    constructor
    · intro h
      cases h with
      | cons k1 k2 => exact .cons (by simpa only [hb a c h1] using k1) ((pad_aux b b' hb h2 hl').1 k2)
    · intro h
      cases h with
      | cons k1 k2 => exact .cons (by simpa only [hb a c h1] using k1) ((pad_aux b b' hb h2 hl').2 k2)

/-- Relation between the two variants of `get_controls_lists`. -/
theorem getControlsAD_iff {c c' : Controls K} {x : List K} {o' : ControlsOut K} (hr : ControlsReach M pd td rd c) :
    c.getControlsAD M x = .ok (c', o') ↔ ∃ o, c.getControls M x = .ok (c', o) ∧ Padded pd o o' := by
  constructor
  · intro h
    unfold Controls.getControlsAD at h
    obtain ⟨ts, hts, h⟩ := py_bind_ok.1 h
    obtain ⟨ps, hps, h⟩ := py_bind_ok.1 h
    obtain ⟨prs, hprs, h⟩ := py_bind_ok.1 h
    rw [py_pure_ok] at h
    cases h
    rw [mapM_ok] at hps
    have h1 : ∃ us : List (List K), us.length = ps.length ∧
        List.Forall₂ (fun p (r : Pulse K × List K) => (do
          let v ← gather x p.ctrlList
          let t ← dictGet ts p.timeName
          p.getPulse M v t.getTime) = .ok r) c.pulses ((ps.map (·.1)).zip us) ∧
        List.Forall₂ (fun (e : Pulse K × List K) row => padRow c.maxBins e.1.binsNumber e.2 = .ok row)
          ((ps.map (·.1)).zip us) (ps.map (·.2.1)) ∧
        List.Forall₂ (fun (e : Pulse K × List K) row => padRow c.maxBins e.1.binsNumber e.2 = .ok row)
          ((ps.map (·.1)).zip (ps.map (·.1.timeGrid))) (ps.map (·.2.2)) := by
      clear * - hps
      generalize c.maxBins = w at hps
      generalize c.pulses = l at hps
      induction hps with
      | nil => exact ⟨[], rfl, .nil, .nil, .nil⟩
      | cons h1 _ ih =>
        obtain ⟨us, i0, i1, i2, i3⟩ := ih
        obtain ⟨u, k1, k2, k3⟩ := adRow_ok.1 h1
        exact ⟨u :: us, by simp [i0], .cons k1 i1, .cons k2 i2, .cons k3 i3⟩
    obtain ⟨us, l0, l1, l2, l3⟩ := h1
    have hg : c.getControls M x = .ok
        ({ pulses := ps.map (·.1), params := prs.map (·.1), times := ts },
          { pulses := us, timegrids := ps.map (·.1.timeGrid), parameters := prs.map (·.2) }) := by
      unfold Controls.getControls
      rw [hts]
      have e1 := mapM_ok.2 l1
      have a1 : ((ps.map (·.1)).zip us).map (·.1) = ps.map (·.1) := by
        rw [List.map_fst_zip]; simp [l0]
      have a2 : ((ps.map (·.1)).zip us).map (·.2) = us := by
        rw [List.map_snd_zip]; simp [l0]
      have a3 : ((ps.map (·.1)).zip us).map (fun r => r.1.timeGrid) = ps.map (·.1.timeGrid) := by
        have : ((ps.map (·.1)).zip us).map (fun r => r.1.timeGrid) = (((ps.map (·.1)).zip us).map (·.1)).map (·.timeGrid) := by
          rw [List.map_map]; rfl
        rw [this, a1, List.map_map]; rfl
      simp only [bind, Except.bind] at e1 hprs ⊢
      rw [e1]
      simp only [hprs, pure, Except.pure, a1, a2, a3]
    refine ⟨_, hg, rfl, ?_, ?_⟩
    · have hp := pulses_of_reach hr hg
      have := (pad_aux (w := width pd) (rows := ps.map (·.2.1)) (fun d : PulseDict K => d.binsNumber) (fun p : Pulse K => p.binsNumber)
        (fun d p h => (h.fields.2.2.2.2.1)) hp (us := us) (by simp [l0])).2
      rw [hr.maxBins_eq] at l2
      exact this l2
    · have hp := pulses_of_reach hr hg
      have := (pad_aux (w := width pd) (rows := ps.map (·.2.2)) (fun d : PulseDict K => d.binsNumber) (fun p : Pulse K => p.binsNumber)
        (fun d p h => (h.fields.2.2.2.2.1)) hp (us := ps.map (·.1.timeGrid)) (by simp)).2
      rw [hr.maxBins_eq] at l3
      exact this l3
  · rintro ⟨o, h, hp⟩
    have hq := pulses_of_reach hr h
    unfold Controls.getControls at h
    obtain ⟨ts, hts, h⟩ := py_bind_ok.1 h
    obtain ⟨ps, hps, h⟩ := py_bind_ok.1 h
    obtain ⟨prs, hprs, h⟩ := py_bind_ok.1 h
    rw [py_pure_ok] at h
    cases h
    rw [mapM_ok] at hps
    obtain ⟨p1, p2, p3⟩ := hp
    have k2 := (pad_aux (w := width pd) (rows := o'.pulses) (fun d : PulseDict K => d.binsNumber) (fun p : Pulse K => p.binsNumber)
        (fun d p h => (h.fields.2.2.2.2.1)) hq (us := ps.map (·.2)) (by simp)).1 p2
    have k3 := (pad_aux (w := width pd) (rows := o'.timegrids) (fun d : PulseDict K => d.binsNumber) (fun p : Pulse K => p.binsNumber)
        (fun d p h => (h.fields.2.2.2.2.1)) hq (us := ps.map (·.1.timeGrid)) (by simp)).1 p3
    obtain ⟨us', gs', prs'⟩ := o'
    dsimp only at p1 k2 k3
    subst p1
    rw [← hr.maxBins_eq] at k2 k3
    have h1 : ∃ rs : List (Pulse K × List K × List K), List.Forall₂ (fun p r => adRow M c.maxBins x ts p = .ok r) c.pulses rs ∧
        rs.map (·.1) = ps.map (·.1) ∧ rs.map (·.2.1) = us' ∧ rs.map (·.2.2) = gs' := by
      clear * - hps k2 k3
      generalize c.maxBins = w at k2 k3 ⊢
      generalize c.pulses = l at hps ⊢
      induction hps generalizing us' gs' with
      | nil =>
        cases k2; cases k3
        exact ⟨[], .nil, rfl, rfl, rfl⟩
      | @cons p r l ps h1 _ ih =>
        simp only [List.map_cons, List.zip_cons_cons] at k2 k3
        cases k2 with
        | @cons _ u' _ us' a1 a2 =>
          cases k3 with
          | @cons _ g' _ gs' b1 b2 =>
            obtain ⟨rs, i1, i2, i3, i4⟩ := ih us' gs' a2 b2
            refine ⟨(r.1, u', g') :: rs, .cons (adRow_ok.2 ⟨r.2, h1, a1, b1⟩) i1, ?_, ?_, ?_⟩ <;>
              simp only [List.map_cons, i2, i3, i4]
    obtain ⟨rs, l1, l2, l3, l4⟩ := h1
    unfold Controls.getControlsAD
    have e1 := mapM_ok.2 l1
    rw [hts]
    simp only [bind, Except.bind] at hprs ⊢
    rw [e1]
    simp only [hprs, pure, Except.pure, l2, l3, l4]

/-- Filling up with zeros. -/
theorem padRow_full {w b : ℕ} {u row : List K} (hb : b ≤ w) (hu : u.length = b) (h : padRow w b u = .ok row) :
    row = u ++ List.replicate (w - b) 0 := by
  unfold padRow at h
  rw [min_eq_left hb, if_pos hu] at h
  cases h
  rfl

/-- The rows delivered by a reachable object. -/
theorem delivered_rows {c c' : Controls K} {x : List K} {o : ControlsOut K} (hr : ControlsReach M pd td rd c)
    (h : c.getControlsAD M x = .ok (c', o)) : AdmissibleRows pd td rd o := by
  obtain ⟨o0, h0, hp⟩ := (getControlsAD_iff hr).1 h
  have ha := delivered_admissible hr h0
  obtain ⟨n1, n2, n3⟩ := ha.number
  have m1 := hp.pulses.length_eq
  have m2 := hp.timegrids.length_eq
  rw [List.length_zip] at m1 m2
  refine ⟨⟨by omega, by omega, by rw [hp.parameters, n3]⟩, ?_, by rw [hp.parameters]; exact ha.parameters⟩
  intro i d row grid hd hrow hgrid hb hs
  have hid : i < pd.length := (List.getElem?_eq_some_iff.1 hd).1
  have hd' : pd[i] = d := (List.getElem?_eq_some_iff.1 hd).2
  have hir := (List.getElem?_eq_some_iff.1 hrow)
  have hig := (List.getElem?_eq_some_iff.1 hgrid)
  have hw : d.binsNumber ≤ width pd := le_foldl_max (List.mem_map_of_mem (hd' ▸ List.getElem_mem hid))
  have hap := ha.pulses i d o0.pulses[i] o0.timegrids[i] hd (List.getElem?_eq_getElem (by omega)) (List.getElem?_eq_getElem (by omega))
  have e1 := (List.forall₂_iff_get.1 hp.pulses).2 i (by rw [List.length_zip]; omega) hir.1
  have e2 := (List.forall₂_iff_get.1 hp.timegrids).2 i (by rw [List.length_zip]; omega) hig.1
  simp only [List.get_eq_getElem, List.getElem_zip, hd', hir.2, hig.2] at e1 e2
  exact ⟨_, _, hap, padRow_full hw (hap.samples hb hs) e1, padRow_full hw hap.grid.1 e2⟩

/-- With the same number of bins for all pulses the rows are the pulses. -/
theorem AdmissibleRows.same {o : ControlsOut K} (h : AdmissibleRows pd td rd o) (hs : SameBins pd)
    (hb : ∀ d ∈ pd, 2 ≤ d.binsNumber ∧ ScalingKeepsLength d.scaling) : Admissible pd td rd o := by
  refine ⟨h.number, ?_, h.parameters⟩
  intro i d u t hd hu ht
  have hmem : d ∈ pd := List.mem_of_getElem? hd
  obtain ⟨u0, t0, ha, e1, e2⟩ := h.pulses i d u t hd hu ht (hb d hmem).1 (hb d hmem).2
  have hw : width pd ≤ d.binsNumber := by
    have : ∀ (l : List ℕ) (a : ℕ), a ≤ d.binsNumber → (∀ b ∈ l, b = d.binsNumber) → l.foldl max a ≤ d.binsNumber := by
      intro l
      induction l with
      | nil => intro a ha _; exact ha
      | cons b l ih =>
        intro a ha hl
        exact ih _ (max_le ha (hl b (by simp)).le) fun b' hb' => hl b' (by simp [hb'])
    refine this _ 0 (Nat.zero_le _) ?_
    intro b hb'
    obtain ⟨d', hd', rfl⟩ := List.mem_map.1 hb'
    exact hs d' hd' d hmem
  rw [Nat.sub_eq_zero_of_le hw, List.replicate_zero, List.append_nil] at e1 e2
  rw [e1, e2]
  exact ha

/-- Reproducing results survives a change of the form of the controls. -/
theorem Reproducible.post {O V C C' : Type} {ops : CtlOps O V C} {ops' : CtlOps O V C'} {I : O → Prop} (R : C → C' → Prop)
    (h : Reproducible ops I) (hm : ops'.mean = ops.mean) (hu : ops'.updateBase = ops.updateBase)
    (hs : ops'.selectBasis = ops.selectBasis)
    (hg : ∀ o x o' c', I o → (ops'.getControls o x = .ok (o', c') ↔ ∃ c, ops.getControls o x = .ok (o', c) ∧ R c c')) :
    Reproducible ops' I := by
  have shows : ∀ o x c', I o → (Shows ops' o x c' ↔ ∃ c, Shows ops o x c ∧ R c c') := by
    intro o x c' ho
    constructor
    · intro h'
      unfold Shows at h'
      rcases he : ops'.getControls o x with e | ⟨o1, c1⟩
      · rw [he] at h'; cases h'
      · rw [he] at h'; cases h'
        obtain ⟨c, h1, h2⟩ := (hg o x o1 c1 ho).1 he
        exact ⟨c, by unfold Shows; rw [h1]; rfl, h2⟩
    · rintro ⟨c, h1, h2⟩
      unfold Shows at h1
      rcases he : ops.getControls o x with e | ⟨o1, c1⟩
      · rw [he] at h1; cases h1
      · rw [he] at h1; cases h1
        unfold Shows
        rw [(hg o x o1 c' ho).2 ⟨_, he, h2⟩]; rfl
  have means : ∀ o c', I o → (ShowsMean ops' o c' ↔ ∃ c, ShowsMean ops o c ∧ R c c') := by
    intro o c' ho
    constructor
    · rintro ⟨x, h1, h2⟩
      obtain ⟨c, h3, h4⟩ := (shows o x c' ho).1 h2
      exact ⟨c, ⟨x, hm ▸ h1, h3⟩, h4⟩
    · rintro ⟨c, ⟨x, h1, h3⟩, h4⟩
      exact ⟨x, hm ▸ h1, (shows o x c' ho).2 ⟨c, h3, h4⟩⟩
  refine ⟨?_, ?_, ?_⟩
  · intro o x o' c' ho hgc
    obtain ⟨c, h1, h2⟩ := (hg o x o' c' ho).1 hgc
    obtain ⟨k1, k2⟩ := h.build o x o' c ho h1
    refine ⟨k1, fun y c2 hy => ?_⟩
    obtain ⟨c3, h3, h4⟩ := (shows o y c2 ho).1 hy
    exact (shows o' y c2 k1).2 ⟨c3, k2 y c3 h3, h4⟩
  · intro o x o' ho hub
    rw [hu] at hub
    obtain ⟨k1, k2⟩ := h.base o x o' ho hub
    refine ⟨k1, fun c2 hy => ?_⟩
    obtain ⟨c3, h3, h4⟩ := (shows o x c2 ho).1 hy
    exact (means o' c2 k1).2 ⟨c3, k2 c3 h3, h4⟩
  · intro k o o' ho hsb
    rw [hs] at hsb
    obtain ⟨k1, k2⟩ := h.basis k o o' ho hsb
    refine ⟨k1, fun c2 hy => ?_⟩
    obtain ⟨c3, h3, h4⟩ := (means o c2 ho).1 hy
    exact (means o' c2 k1).2 ⟨c3, k2 c3 h3, h4⟩

/-- The AD variant of the controls object lets results be reproduced in the standard configuration. -/
theorem reproducible_ad (rnd : ℕ → ℕ → List K) (simplex : ℕ → List K → List K → Py (List (List K)))
    (hS : StandardControls M pd td rd) : Reproducible (adControlsOps M rnd simplex) (ControlsReach M pd td rd) :=
  (reproducible_standard (rnd := rnd) (simplex := simplex) hS).post (Padded pd) rfl rfl rfl
    fun o x o' c' ho => getControlsAD_iff ho

end
end QuOCS

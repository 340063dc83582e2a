/-
With a usable dictionary the automatic-differentiation variant of the controls never raises.
-/
import Verif.Lemmas.ControlsAD
import Verif.Lemmas.Usable
import Verif.Props.Continue
import Verif.Model.ProgramAD

set_option linter.unusedSectionVars false
set_option linter.unusedVariables false

namespace QuOCS

section
variable {K : Type} [Field K] [LinearOrder K] [IsStrictOrderedRing K]
variable {M : MathFns K} {pd : List (PulseDict K)} {td : List (TimeDict K)} {rd : List (ParamDict K)} {c : Controls K}

theorem getPulse_length {d : PulseDict K} {p : Pulse K} (h : PulseReach M d p) (hu : UsablePulse td d) (hb : p.basePulse.length = p.binsNumber)
    {x : List K} (hx : x.length = p.nParams) (T : K) {q : Pulse K} {u : List K} (e : p.getPulse M x T = .ok (q, u)) :
    u.length = d.binsNumber := by
  have hbins := h.fields.2.2.2.2.1
  obtain ⟨u', h1, h2⟩ := foldlM_exists (f := fun u s => (p.setInputs x T).applyStep M u s)
    (I := fun u => u.length = d.binsNumber) (l := p.shaping)
    (fun s _ u hl => applyStep_exists h hu hb hx T s hl) (b := zeros p.binsNumber) (by simp [zeros, hbins])
  unfold Pulse.getPulse Pulse.build at e
  have h1' : List.foldlM (fun u s => (p.setInputs x T).applyStep M u s) (zeros (p.setInputs x T).binsNumber)
    (p.setInputs x T).shaping = .ok u' := h1
  simp only [h1', bind, Except.bind] at e
  cases e
  exact h2

/-- The pulses have as many samples as bins. -/
theorem Ready.samples (hu : Usable pd td rd) (h : Ready M pd td rd c) {x : List K} (hx : x.length = searchDim pd rd)
    {c' : Controls K} {o : ControlsOut K} (e : c.getControls M x = .ok (c', o)) :
    List.Forall₂ (fun d u => u.length = d.binsNumber) pd o.pulses := by
  have hi := CInv.of_reach h.reach
  unfold Controls.getControls at e
  obtain ⟨ts, hts, e⟩ := py_bind_ok.1 e
  obtain ⟨ps, hps, e⟩ := py_bind_ok.1 e
  obtain ⟨prs, hprs, e⟩ := py_bind_ok.1 e
  rw [py_pure_ok] at e
  cases e
  have h1 := mapM_ok.1 hps
  have h2 : List.Forall₂ (fun d p => PulseReach M d p ∧ d ∈ pd ∧ p ∈ c.pulses) pd c.pulses := by
    have := hi.reach
    rw [List.forall₂_iff_get] at this ⊢
    exact ⟨this.1, fun i a b => ⟨this.2 i a b, List.get_mem _ _, List.get_mem _ _⟩⟩
  have h3 := forall2_zip_left h2 h1
  rw [List.forall₂_map_right_iff]
  refine h3.imp ?_
  rintro d ⟨q, u⟩ ⟨p, ⟨hr, hd, hp⟩, hb⟩
  obtain ⟨v, hv, hb⟩ := py_bind_ok.1 hb
  obtain ⟨t, ht, hb⟩ := py_bind_ok.1 hb
  obtain ⟨k1, k2⟩ := hi.pulse_slots hp
  obtain ⟨v', h3, h4⟩ := gather_exists (a := x) (idx := p.ctrlList) (by rw [hx]; exact k1)
  rw [hv] at h3
  cases h3
  exact getPulse_length hr (hu.pulses d hd) (h.base p hp) (h4.trans k2) _ hb

theorem fill_exists {w : ℕ} : ∀ {l : List (PulseDict K)} {us : List (List K)}, List.Forall₂ (fun d u => u.length = d.binsNumber) l us →
    (∀ d ∈ l, d.binsNumber ≤ w) →
    List.Forall₂ (fun (e : PulseDict K × List K) row => padRow w e.1.binsNumber e.2 = .ok row) (l.zip us)
      (us.map fun u => u ++ List.replicate (w - u.length) 0)
  | _, _, .nil, _ => .nil
  | _, _, .cons h1 h2, hw => .cons (by
      have := hw _ List.mem_cons_self
      dsimp only
      unfold padRow
      rw [min_eq_left this, if_pos h1, h1]
      rfl) (fill_exists h2 fun d hd => hw d (by simp [hd]))

theorem fill_unique {w : ℕ} : ∀ {l : List (PulseDict K)} {us rows : List (List K)}, List.Forall₂ (fun d u => u.length = d.binsNumber) l us →
    (∀ d ∈ l, d.binsNumber ≤ w) →
    List.Forall₂ (fun (e : PulseDict K × List K) row => padRow w e.1.binsNumber e.2 = .ok row) (l.zip us) rows →
      rows = us.map fun u => u ++ List.replicate (w - u.length) 0
  | _, _, _, .nil, _, .nil => rfl
  | _, _, _, .cons h1 h2, hw, .cons k1 k2 => by
      rw [fill_unique h2 (fun d hd => hw d (by simp [hd])) k2, List.map_cons, padRow_full (hw _ (by simp)) h1 k1, h1]

/-- the array with the pulses as rows -/
def ControlsOut.filled (pd : List (PulseDict K)) (o : ControlsOut K) : ControlsOut K :=
  { pulses := o.pulses.map fun u => u ++ List.replicate (width pd - u.length) 0
    timegrids := o.timegrids.map fun u => u ++ List.replicate (width pd - u.length) 0
    parameters := o.parameters }

theorem grids_length {c' : Controls K} {x : List K} {o : ControlsOut K} (h : ControlsReach M pd td rd c) (e : c.getControls M x = .ok (c', o)) :
    List.Forall₂ (fun d u => u.length = d.binsNumber) pd o.timegrids := by
  have ha := delivered_admissible h e
  obtain ⟨n1, n2, n3⟩ := ha.number
  rw [List.forall₂_iff_get]
  refine ⟨n2.symm, fun i h1 h2 => ?_⟩
  exact (ha.pulses i _ _ _ (List.getElem?_eq_getElem h1) (List.getElem?_eq_getElem (by omega)) (List.getElem?_eq_getElem h2)).grid.1

/-- The AD variant builds the same controls, as rows of a common width. -/
theorem Ready.getAD (hu : Usable pd td rd) (h : Ready M pd td rd c) {x : List K} (hx : x.length = searchDim pd rd) {c' : Controls K}
    {o' : ControlsOut K} :
    c.getControlsAD M x = .ok (c', o') ↔ ∃ o, c.getControls M x = .ok (c', o) ∧ o' = o.filled pd := by
  have hw : ∀ d ∈ pd, d.binsNumber ≤ width pd := fun d hd => le_foldl_max (List.mem_map_of_mem hd)
  rw [getControlsAD_iff h.reach]
  refine exists_congr fun o => and_congr_right fun e => ?_
  constructor
  · rintro ⟨h1, h2, h3⟩
    have e2 := fill_unique (h.samples hu hx e) hw h2
    have e3 := fill_unique (grids_length h.reach e) hw h3
    obtain ⟨a, b, c⟩ := o'
    simp only at h1 e2 e3
    subst h1 e2 e3
    rfl
  · rintro rfl
    exact ⟨rfl, fill_exists (h.samples hu hx e) hw, fill_exists (grids_length h.reach e) hw⟩

end

section
variable {K : Type} [Field K] [LinearOrder K] [IsStrictOrderedRing K]
variable {M : MathFns K} {pd : List (PulseDict K)} {td : List (TimeDict K)} {rd : List (ParamDict K)} {rnd : ℕ → ℕ → List K}

theorem ad_get (hu : Usable pd td rd) {c c' : Controls K} (h : Ready M pd td rd c) {x : Vec K (searchDim pd rd)} {o' : ControlsOut K} :
    (adOps M rnd).getControls c x = .ok (c', o') ↔ ∃ o, c.getControls M (List.ofFn x) = .ok (c', o) ∧ o' = o.filled pd :=
  h.getAD hu (by simp)

theorem ad_faultless (hu : Usable pd td rd) (hr : ∀ k, EnoughRandom pd (rnd k)) :
    Faultless (adOps M rnd (n := searchDim pd rd)) (Ready M pd td rd) (fun _ => True) where
  get c x h := by
    obtain ⟨c', o, h1, h2⟩ := h.get hu (x := List.ofFn x) (by simp)
    exact ⟨c', _, (ad_get hu h).2 ⟨o, h1, rfl⟩, h2⟩
  mean c h := by
    obtain ⟨v, h1, h2⟩ := h.mean
    obtain ⟨w, h3⟩ := vecOfList_exists h2
    exact ⟨w, by show (do vecOfList _ (← c.mean)) = _; rw [h1]; exact h3⟩
  sigma c h := by
    obtain ⟨v, h1, h2⟩ := h.sigma hu
    obtain ⟨w, h3⟩ := vecOfList_exists h2
    exact ⟨w, by show (do vecOfList _ (← c.sigma)) = _; rw [h1]; exact h3⟩
  update c x h := h.update hu (x := List.ofFn x) (by simp)
  select k c h := h.select (hr k)
  simplex k x y := ⟨_, rfl, trivial⟩

theorem ad_reproducible (hS : StandardControls M pd td rd) (hu : Usable pd td rd) (hr : ∀ k, EnoughRandom pd (rnd k)) :
    Reproducible (adOps M rnd (n := searchDim pd rd)) (Ready M pd td rd) := by
  refine (system_reproducible (M := M) (sqrt := id) (draws := fun _ => fun _ => (0 : K)) hS hu hr).post (fun o o' => o' = o.filled pd) rfl rfl rfl ?_
  intro o x o' c' ho
  rw [ad_get hu ho]
  refine exists_congr fun c => and_congr_left fun _ => ?_
  show _ ↔ getControlsFor .dcrab M o (List.ofFn x) = _
  unfold getControlsFor
  rcases o.getControls M (List.ofFn x) with e | p
  · simp [bind, Except.bind]
  · simp [bind, Except.bind]

end
end QuOCS

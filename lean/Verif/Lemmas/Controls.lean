/-
Helper lemmas about the controls object.
-/
import Verif.Spec.Controls
import Verif.Lemmas.Bases
import Mathlib.Data.List.Forall2
import Mathlib.Data.List.Range

set_option linter.unusedSectionVars false

namespace QuOCS

theorem mapM_ok.{u, v} {α : Type u} {β : Type v} {f : α → Py β} {l : List α} {r : List β} :
    l.mapM f = .ok r ↔ List.Forall₂ (fun a b => f a = .ok b) l r := by
  induction l generalizing r with
  | nil =>
    simp only [List.mapM_nil, List.forall₂_nil_left_iff]
    rw [py_pure_ok, eq_comm]
  | cons a l ih =>
    simp only [List.mapM_cons]
    rw [py_bind_ok]
    constructor
    · rintro ⟨b, hb, h⟩
      obtain ⟨bs, hbs, h⟩ := py_bind_ok.1 h
      rw [py_pure_ok] at h
      subst h
      exact .cons hb (ih.1 hbs)
    · intro h
      cases h with
      | cons h1 h2 => exact ⟨_, h1, py_bind_ok.2 ⟨_, ih.2 h2, py_pure_ok.2 rfl⟩⟩

theorem forall2_map_eq {α β γ : Type*} {R : α → β → Prop} {f : α → γ} {g : β → γ} {l : List α} {r : List β}
    (h : List.Forall₂ R l r) (hfg : ∀ a b, R a b → g b = f a) : r.map g = l.map f := by
  induction h with
  | nil => rfl
  | cons h _ ih => simp [hfg _ _ h, ih]

theorem forall2_right_mem {α β : Type*} {R : α → β → Prop} {l : List α} {r : List β} (h : List.Forall₂ R l r)
    {b : β} (hb : b ∈ r) : ∃ a ∈ l, R a b := by
  induction h with
  | nil => simp at hb
  | cons h1 h2 ih =>
    rcases List.mem_cons.1 hb with rfl | hb
    · exact ⟨_, by simp, h1⟩
    · obtain ⟨a, ha, hr⟩ := ih hb
      exact ⟨a, by simp [ha], hr⟩

section
variable {K : Type*} [Field K] [LinearOrder K] [IsStrictOrderedRing K]

theorem ctrlIndices_eq (k n : ℕ) : ctrlIndices ((k : ℤ) - 1) n = List.range' k n := by
  unfold ctrlIndices
  rw [List.range'_eq_map_range]
  apply List.map_congr_left
  intro i _
  omega

/-- The part of a pulse object that decides about slots. -/
def slotData (p : Pulse K) : List ℕ × ℤ × ℕ := (p.ctrlList, p.lastIndex, p.nParams)

/-- Pulses own consecutive slot ranges from `k` on. -/
def PChain : ℕ → List (Pulse K) → Prop
  | _, [] => True
  | k, p :: ps => p.ctrlList = List.range' k p.nParams ∧ p.lastIndex = (k : ℤ) + p.nParams - 1 ∧
      PChain (k + p.nParams) ps

/-- Parameters own consecutive slots from `k` on. -/
def QChain : ℕ → List (Param K) → Prop
  | _, [] => True
  | k, p :: ps => p.ctrlList = [k] ∧ p.lastIndex = (k : ℤ) ∧ QChain (k + 1) ps

theorem PChain_congr {k : ℕ} {ps qs : List (Pulse K)} (h : qs.map slotData = ps.map slotData) (hp : PChain k ps) :
    PChain k qs := by
  induction ps generalizing k qs with
  | nil => simp at h; subst h; trivial
  | cons p ps ih =>
    cases qs with
    | nil => simp at h
    | cons q qs =>
      simp only [List.map_cons, List.cons.injEq, slotData, Prod.mk.injEq] at h
      obtain ⟨⟨h1, h2, h3⟩, h4⟩ := h
      obtain ⟨c1, c2, c3⟩ := hp
      refine ⟨by rw [h1, h3, c1], by rw [h2, h3, c2], ?_⟩
      rw [h3]
      exact ih h4 c3

theorem QChain_congr {k : ℕ} {ps qs : List (Param K)}
    (h : qs.map (fun p => (p.ctrlList, p.lastIndex)) = ps.map (fun p => (p.ctrlList, p.lastIndex)))
    (hp : QChain k ps) : QChain k qs := by
  induction ps generalizing k qs with
  | nil => simp at h; subst h; trivial
  | cons p ps ih =>
    cases qs with
    | nil => simp at h
    | cons q qs =>
      simp only [List.map_cons, List.cons.injEq, Prod.mk.injEq] at h
      obtain ⟨⟨h1, h2⟩, h4⟩ := h
      obtain ⟨c1, c2, c3⟩ := hp
      exact ⟨by rw [h1, c1], by rw [h2, c2], ih h4 c3⟩

theorem PChain_flatten {k : ℕ} {ps : List (Pulse K)} (h : PChain k ps) :
    (ps.map (·.ctrlList)).flatten = List.range' k (ps.map (·.nParams)).sum := by
  induction ps generalizing k with
  | nil => rfl
  | cons p ps ih =>
    obtain ⟨h1, h2, h3⟩ := h
    simp only [List.map_cons, List.flatten_cons, List.sum_cons, h1, ih h3]
    rw [List.range'_append_1]

theorem QChain_flatten {k : ℕ} {ps : List (Param K)} (h : QChain k ps) :
    (ps.map (·.ctrlList)).flatten = List.range' k ps.length := by
  induction ps generalizing k with
  | nil => rfl
  | cons p ps ih =>
    obtain ⟨h1, h2, h3⟩ := h
    simp only [List.map_cons, List.flatten_cons, h1, ih h3, List.length_cons]
    rfl

theorem reindexPulses_id {k : ℕ} {ps : List (Pulse K)} (h : PChain k ps) :
    reindexPulses ((k : ℤ) - 1) ps = (ps, (k : ℤ) + (ps.map (·.nParams)).sum - 1) := by
  induction ps generalizing k with
  | nil => simp [reindexPulses]
  | cons p ps ih =>
    obtain ⟨h1, h2, h3⟩ := h
    have e : p.setCtrlList ((k : ℤ) - 1) = p := by
      unfold Pulse.setCtrlList
      rw [ctrlIndices_eq, ← h1]
    simp only [reindexPulses, e]
    have := ih h3
    have e2 : p.lastIndex = ((k + p.nParams : ℕ) : ℤ) - 1 := by rw [h2]; push_cast; ring
    rw [e2, this]
    simp only [List.map_cons, List.sum_cons]
    push_cast
    simp only [Prod.mk.injEq, true_and]
    ring

theorem reindexParams_id {k : ℕ} {ps : List (Param K)} (h : QChain k ps) :
    reindexParams ((k : ℤ) - 1) ps = ps := by
  induction ps generalizing k with
  | nil => rfl
  | cons p ps ih =>
    obtain ⟨h1, h2, h3⟩ := h
    have e : p.setCtrlList ((k : ℤ) - 1) = p := by
      unfold Param.setCtrlList
      rw [ctrlIndices_eq, show List.range' k 1 = [k] from rfl, ← h1]
    simp only [reindexParams, e]
    have e2 : p.lastIndex = ((k + 1 : ℕ) : ℤ) - 1 := by rw [h2]; push_cast; ring
    rw [e2, ih h3]

/-- What never changes in a parameter object. -/
def ParamOf (d : ParamDict K) (p : Param K) : Prop :=
  p.name = d.name ∧ p.lower = d.lower ∧ p.upper = d.upper ∧ p.amplitudeVariation = d.amplitudeVariation

/-- Invariant of the controls object. -/
structure CInv (M : MathFns K) (pd : List (PulseDict K)) (td : List (TimeDict K)) (rd : List (ParamDict K))
    (c : Controls K) : Prop where
  reach : List.Forall₂ (PulseReach M) pd c.pulses
  pchain : PChain 0 c.pulses
  qchain : QChain (c.pulses.map (·.nParams)).sum c.params
  params : List.Forall₂ ParamOf rd c.params
  fixed : FixedTimes td → ∀ t ∈ c.times, t.2.isOptimization = false

theorem Pulse.getPulse_slot {M : MathFns K} {p q : Pulse K} {x u : List K} {T : K} (h : p.getPulse M x T = .ok (q, u)) :
    slotData q = slotData p := by
  unfold Pulse.getPulse at h
  obtain ⟨v, _, h⟩ := py_bind_ok.1 h
  rw [py_pure_ok] at h
  obtain ⟨rfl, rfl⟩ := Prod.mk.inj h
  rfl

theorem Pulse.getBarePulse_slot {M : MathFns K} {p q : Pulse K} {x u : List K} {T : K}
    (h : p.getBarePulse M x T = .ok (q, u)) : slotData q = slotData p := by
  unfold Pulse.getBarePulse at h
  obtain ⟨v, _, h⟩ := py_bind_ok.1 h
  rw [py_pure_ok] at h
  obtain ⟨rfl, rfl⟩ := Prod.mk.inj h
  rfl

theorem Pulse.setBasePulse_slot {M : MathFns K} {p q : Pulse K} {x : List K} {T : K}
    (h : p.setBasePulse M x T = .ok q) : slotData q = slotData p := by
  unfold Pulse.setBasePulse at h
  obtain ⟨u, _, h⟩ := py_bind_ok.1 h
  split at h
  · rw [py_pure_ok] at h; subst h; rfl
  · obtain ⟨b, _, h⟩ := py_bind_ok.1 h
    rw [py_pure_ok] at h; subst h; rfl

theorem Pulse.drawSuper_slot {p q : Pulse K} {rnd : List K} (h : p.drawSuper rnd = .ok q) :
    slotData q = slotData p := by
  unfold Pulse.drawSuper at h
  obtain ⟨u, _, h⟩ := py_bind_ok.1 h
  rw [py_pure_ok] at h; subst h; rfl

theorem nParams_of_slotData {ps qs : List (Pulse K)} (h : qs.map slotData = ps.map slotData) :
    qs.map (·.nParams) = ps.map (·.nParams) := by
  have := congrArg (List.map (fun z : List ℕ × ℤ × ℕ => z.2.2)) h
  simpa [List.map_map, Function.comp_def, slotData] using this

theorem mkPulses_inv {M : MathFns K} {k : ℕ} {ds : List (PulseDict K)} {ps : List (Pulse K)} {mi : ℤ}
    (h : mkPulses M ((k : ℤ) - 1) ds = .ok (ps, mi)) :
    List.Forall₂ (PulseReach M) ds ps ∧ PChain k ps ∧ mi = (k : ℤ) + (ps.map (·.nParams)).sum - 1 := by
  induction ds generalizing k ps mi with
  | nil =>
    simp only [mkPulses, Except.ok.injEq, Prod.mk.injEq] at h
    obtain ⟨rfl, rfl⟩ := h
    exact ⟨.nil, trivial, by simp⟩
  | cons d ds ih =>
    unfold mkPulses at h
    obtain ⟨p, hp, h⟩ := py_bind_ok.1 h
    obtain ⟨⟨ps', mi'⟩, h1, h⟩ := py_bind_ok.1 h
    rw [py_pure_ok] at h
    obtain ⟨rfl, rfl⟩ := Prod.mk.inj h
    have hpf : p.ctrlList = List.range' k p.nParams ∧ p.lastIndex = (k : ℤ) + p.nParams - 1 := by
      unfold mkPulse at hp
      simp only at hp
      split at hp
      · simp at hp
      · simp only [Except.ok.injEq] at hp
        subst hp
        simp only [ctrlIndices_eq, true_and]
        ring
    have e2 : p.lastIndex = ((k + p.nParams : ℕ) : ℤ) - 1 := by rw [hpf.2]; push_cast; ring
    rw [e2] at h1
    obtain ⟨i1, i2, i3⟩ := ih h1
    refine ⟨.cons (.create hp) i1, ⟨hpf.1, hpf.2, i2⟩, ?_⟩
    simp only [List.map_cons, List.sum_cons]
    rw [i3]; push_cast; ring

theorem mkParams_inv {k : ℕ} (ds : List (ParamDict K)) :
    QChain k (mkParams ((k : ℤ) - 1) ds) ∧ List.Forall₂ ParamOf ds (mkParams ((k : ℤ) - 1) ds) ∧
      (mkParams ((k : ℤ) - 1) ds).map (·.value) = ds.map (·.initialValue) := by
  induction ds generalizing k with
  | nil => exact ⟨trivial, .nil, rfl⟩
  | cons d ds ih =>
    simp only [mkParams]
    have e : (mkParam ((k : ℤ) - 1) d).lastIndex = ((k + 1 : ℕ) : ℤ) - 1 := by simp [mkParam]
    rw [e]
    obtain ⟨h1, h2, h3⟩ := ih (k := k + 1)
    refine ⟨⟨?_, ?_, h1⟩, .cons ⟨rfl, rfl, rfl, rfl⟩ h2, ?_⟩
    · simp only [mkParam, ctrlIndices_eq]; rfl
    · simp [mkParam]
    · rw [List.map_cons, List.map_cons, h3]; rfl

theorem mem_dictSet {α β : Type*} [DecidableEq α] {d : List (α × β)} {k : α} {v : β} {t : α × β}
    (h : t ∈ dictSet d k v) : t ∈ d ∨ t.2 = v := by
  induction d with
  | nil => simp [dictSet] at h; right; rw [h]
  | cons a d ih =>
    obtain ⟨k', v'⟩ := a
    unfold dictSet at h
    split at h
    · rcases List.mem_cons.1 h with rfl | h
      · right; rfl
      · left; simp [h]
    · rcases List.mem_cons.1 h with rfl | h
      · left; simp
      · rcases ih h with h | h
        · left; simp [h]
        · right; exact h

theorem mkTimes_fixed {ds : List (TimeDict K)} {acc ts : List (String × TimeObj K)} (h : mkTimes ds acc = .ok ts)
    (hd : FixedTimes ds) (ha : ∀ t ∈ acc, t.2.isOptimization = false) : ∀ t ∈ ts, t.2.isOptimization = false := by
  induction ds generalizing acc with
  | nil => simp only [mkTimes, Except.ok.injEq] at h; subst h; exact ha
  | cons d ds ih =>
    unfold mkTimes at h
    obtain ⟨t, ht, h⟩ := py_bind_ok.1 h
    refine ih h (fun d' hd' => hd d' (by simp [hd'])) ?_
    intro s hs
    rcases mem_dictSet hs with h1 | h1
    · exact ha s h1
    · rw [h1]
      unfold mkTime at ht
      split at ht
      · simp at ht
      · simp only [Except.ok.injEq] at ht
        subst ht
        exact hd d (by simp)

theorem Controls.reindex_id {M : MathFns K} {pd : List (PulseDict K)} {td : List (TimeDict K)}
    {rd : List (ParamDict K)} {c : Controls K} (h : CInv M pd td rd c) : c.reindex = c := by
  unfold Controls.reindex
  have h1 := reindexPulses_id h.pchain
  simp only [Nat.cast_zero, zero_sub, zero_add] at h1
  rw [h1]
  simp only [reindexParams_id h.qchain]

theorem forall2_set {α β : Type*} {R : α → β → Prop} {l : List α} {r : List β} (h : List.Forall₂ R l r) (i : ℕ)
    {b b' : β} (hb : r[i]? = some b) (hR : ∀ a, R a b → R a b') : List.Forall₂ R l (r.set i b') := by
  induction h generalizing i with
  | nil => simp at hb
  | cons h1 h2 ih =>
    cases i with
    | zero =>
      simp only [List.getElem?_cons_zero, Option.some.injEq] at hb
      subst hb
      exact .cons (hR _ h1) h2
    | succ i => exact .cons h1 (ih i (by simpa using hb))

theorem map_set_same {α β : Type*} {f : α → β} {l : List α} {i : ℕ} {a a' : α} (h : l[i]? = some a) (hf : f a' = f a) :
    (l.set i a').map f = l.map f := by
  induction l generalizing i with
  | nil => simp
  | cons x l ih =>
    cases i with
    | zero =>
      simp only [List.getElem?_cons_zero, Option.some.injEq] at h
      subst h
      simp [hf]
    | succ i => simp only [List.set_cons_succ, List.map_cons, ih (by simpa using h)]

theorem CInv.selectAt {M : MathFns K} {pd : List (PulseDict K)} {td : List (TimeDict K)}
    {rd : List (ParamDict K)} {c c' : Controls K} {rnd : ℕ → List K} {i : ℕ} (h : CInv M pd td rd c)
    (hs : c.selectBasisAt rnd i = .ok c') : CInv M pd td rd c' := by
  unfold Controls.selectBasisAt at hs
  split at hs
  · simp only [Except.ok.injEq] at hs; subst hs; exact h
  · rename_i p hp
    split at hs
    · obtain ⟨q, hq, hs⟩ := py_bind_ok.1 hs
      rw [py_pure_ok] at hs
      have hm : (c.pulses.set i q).map slotData = c.pulses.map slotData := map_set_same hp (Pulse.drawSuper_slot hq)
      have hc : CInv M pd td rd { c with pulses := c.pulses.set i q } := by
        refine ⟨forall2_set h.reach i hp (fun a ha => .draw ha hq), PChain_congr hm h.pchain, ?_, h.params, h.fixed⟩
        show QChain ((c.pulses.set i q).map (·.nParams)).sum c.params
        rw [nParams_of_slotData hm]
        exact h.qchain
      rw [Controls.reindex_id hc] at hs
      subst hs
      exact hc
    · simp only [Except.ok.injEq] at hs; subst hs; exact h

theorem CInv.select {M : MathFns K} {pd : List (PulseDict K)} {td : List (TimeDict K)}
    {rd : List (ParamDict K)} {c c' : Controls K} {rnd : ℕ → List K} (h : CInv M pd td rd c)
    (hs : c.selectBasis rnd = .ok c') : CInv M pd td rd c' := by
  unfold Controls.selectBasis at hs
  generalize List.range c.pulses.length = l at hs
  induction l generalizing c with
  | nil => simp only [List.foldlM_nil] at hs; rw [py_pure_ok] at hs; subst hs; exact h
  | cons i l ih =>
    simp only [List.foldlM_cons] at hs
    obtain ⟨c1, h1, hs⟩ := py_bind_ok.1 hs
    exact ih (h.selectAt h1) hs

theorem forall2_comp {α β γ : Type*} {R : α → β → Prop} {S : β → γ → Prop} {T : α → γ → Prop} {a : List α} {b : List β}
    {c : List γ} (h1 : List.Forall₂ R a b) (h2 : List.Forall₂ S b c) (h : ∀ x y z, R x y → S y z → T x z) :
    List.Forall₂ T a c := by
  induction h1 generalizing c with
  | nil => cases h2; exact .nil
  | cons r _ ih => cases h2 with | cons s h2 => exact .cons (h _ _ _ r s) (ih h2)

theorem Param.set_facts {p q : Param K} {v : List K} (h : p.setParameter v = .ok q) :
    (q.ctrlList, q.lastIndex) = (p.ctrlList, p.lastIndex) ∧ (∀ d, ParamOf d p → ParamOf d q) := by
  unfold Param.setParameter at h
  obtain ⟨x, hx, h⟩ := py_bind_ok.1 h
  rw [py_pure_ok] at h
  subst h
  exact ⟨rfl, fun d h => h⟩

theorem setTimes_keeps {x : List K} {ts ts' : List (String × TimeObj K)} (h : setTimes x ts = .ok ts') :
    List.Forall₂ (fun t t' : String × TimeObj K => t'.1 = t.1 ∧ t'.2.isOptimization = t.2.isOptimization ∧
      (t.2.isOptimization = false → t' = t)) ts ts' := by
  unfold setTimes at h
  rw [mapM_ok] at h
  refine List.Forall₂.imp ?_ h
  intro a b hab
  cases ha : a.2.isOptimization with
  | true =>
    simp only [ha, if_true] at hab
    obtain ⟨v, _, hab⟩ := py_bind_ok.1 hab
    obtain ⟨w, _, hab⟩ := py_bind_ok.1 hab
    rw [py_pure_ok] at hab
    subst hab
    simp [ha]
  | false =>
    simp only [ha, Bool.false_eq_true, if_false] at hab
    rw [py_pure_ok] at hab
    subst hab
    simp [ha]

theorem CInv.update {M : MathFns K} {pd : List (PulseDict K)} {td : List (TimeDict K)} {rd : List (ParamDict K)}
    {c : Controls K} (h : CInv M pd td rd c) {ps : List (Pulse K)} {qs : List (Param K)}
    {ts : List (String × TimeObj K)}
    (hp : List.Forall₂ (fun p q => slotData q = slotData p ∧ ∀ d, PulseReach M d p → PulseReach M d q) c.pulses ps)
    (hq : List.Forall₂ (fun p q => (q.ctrlList, q.lastIndex) = (p.ctrlList, p.lastIndex) ∧
      ∀ d, ParamOf d p → ParamOf d q) c.params qs)
    (ht : ts.map (fun t => t.2.isOptimization) = c.times.map (fun t => t.2.isOptimization)) :
    CInv M pd td rd { pulses := ps, params := qs, times := ts } := by
  have hm : ps.map slotData = c.pulses.map slotData := forall2_map_eq hp (fun a b h => h.1)
  refine ⟨forall2_comp h.reach hp (fun d p q hd hpq => hpq.2 d hd), PChain_congr hm h.pchain, ?_,
    forall2_comp h.params hq (fun d p q hd hpq => hpq.2 d hd), ?_⟩
  · show QChain (ps.map (·.nParams)).sum qs
    rw [nParams_of_slotData hm]
    exact QChain_congr (forall2_map_eq hq (fun a b h => h.1)) h.qchain
  · intro hf t htm
    have h1 : t.2.isOptimization ∈ ts.map (fun t => t.2.isOptimization) := List.mem_map_of_mem htm
    rw [ht] at h1
    obtain ⟨s, hs, he⟩ := List.mem_map.1 h1
    rw [← he]
    exact h.fixed hf s hs

theorem getControls_parts {M : MathFns K} {c c' : Controls K} {x : List K} {o : ControlsOut K}
    (h : c.getControls M x = .ok (c', o)) :
    ∃ ts, setTimes x c.times = .ok ts ∧ c'.times = ts ∧
      List.Forall₂ (fun p (r : Pulse K × List K) => ∃ v t, gather x p.ctrlList = .ok v ∧ dictGet ts p.timeName = .ok t ∧
        p.getPulse M v t.getTime = .ok r) c.pulses (c'.pulses.zip o.pulses) ∧
      o.pulses.length = c'.pulses.length ∧ o.timegrids = c'.pulses.map (·.timeGrid) ∧
      List.Forall₂ (fun p q => ∃ v, gather x p.ctrlList = .ok v ∧ p.setParameter v = .ok q) c.params c'.params ∧
      o.parameters = c'.params.map (·.value) := by
  unfold Controls.getControls at h
  obtain ⟨ts, hts, h⟩ := py_bind_ok.1 h
  obtain ⟨ps, hps, h⟩ := py_bind_ok.1 h
  obtain ⟨qs, hqs, h⟩ := py_bind_ok.1 h
  rw [py_pure_ok] at h
  obtain ⟨rfl, rfl⟩ := Prod.mk.inj h
  rw [mapM_ok] at hps hqs
  refine ⟨ts, hts, rfl, ?_, by simp, by simp, ?_, ?_⟩
  · have : (ps.map (·.1)).zip (ps.map (·.2)) = ps := by
      rw [List.zip_map']; simp
    simp only [this]
    refine hps.imp ?_
    intro p r hr
    obtain ⟨v, hv, hr⟩ := py_bind_ok.1 hr
    obtain ⟨t, ht, hr⟩ := py_bind_ok.1 hr
    exact ⟨v, t, hv, ht, hr⟩
  · rw [List.forall₂_map_right_iff]
    refine hqs.imp ?_
    intro p r hr
    obtain ⟨v, hv, hr⟩ := py_bind_ok.1 hr
    unfold Param.getParameter at hr
    obtain ⟨q, hq, hr⟩ := py_bind_ok.1 hr
    rw [py_pure_ok] at hr
    subst hr
    exact ⟨v, hv, hq⟩
  · simp only [List.map_map]
    apply List.map_congr_left
    intro r hr
    obtain ⟨p, _, hp⟩ := forall2_right_mem hqs hr
    obtain ⟨v, hv, hp⟩ := py_bind_ok.1 hp
    unfold Param.getParameter at hp
    obtain ⟨q, hq, hp⟩ := py_bind_ok.1 hp
    rw [py_pure_ok] at hp
    subst hp
    rfl

theorem CInv.of_reach {M : MathFns K} {pd : List (PulseDict K)} {td : List (TimeDict K)} {rd : List (ParamDict K)}
    {c : Controls K} (h : ControlsReach M pd td rd c) : CInv M pd td rd c := by
  induction h with
  | create h =>
    unfold mkControls at h
    obtain ⟨⟨ps, mi⟩, h1, h⟩ := py_bind_ok.1 h
    obtain ⟨ts, h2, h⟩ := py_bind_ok.1 h
    rw [py_pure_ok] at h
    subst h
    obtain ⟨i1, i2, i3⟩ := mkPulses_inv (k := 0) h1
    simp only [Nat.cast_zero, zero_add] at i3
    subst i3
    obtain ⟨j1, j2, j3⟩ := mkParams_inv (K := K) (k := (ps.map (·.nParams)).sum) rd
    exact ⟨i1, i2, j1, j2, fun hf => mkTimes_fixed h2 hf (by simp)⟩
  | select _ h ih => exact ih.select h
  | @get c c' x o _ h ih =>
    obtain ⟨ts, h1, h2, h3, h4, h5, h6, h7⟩ := getControls_parts h
    have : c' = { pulses := c'.pulses, params := c'.params, times := ts } := by rw [← h2]
    rw [this]
    refine ih.update ?_ ?_ ?_
    · have e : (c'.pulses.zip o.pulses).map Prod.fst = c'.pulses := by
        rw [List.map_fst_zip]; omega
      rw [← e, List.forall₂_map_right_iff]
      refine h3.imp ?_
      rintro p r ⟨v, t, _, _, hr⟩
      exact ⟨Pulse.getPulse_slot hr, fun d hd => .get hd hr⟩
    · refine h6.imp ?_
      rintro p q ⟨v, _, hq⟩
      exact Param.set_facts hq
    · exact forall2_map_eq (setTimes_keeps h1) (fun a b h => h.2.1)
  | @bare c c' x o _ h ih =>
    unfold Controls.getBare at h
    obtain ⟨ps, h1, h⟩ := py_bind_ok.1 h
    rw [py_pure_ok] at h
    obtain ⟨rfl, rfl⟩ := Prod.mk.inj h
    rw [mapM_ok] at h1
    refine ih.update ?_ (List.forall₂_same.2 (fun p _ => ⟨rfl, fun d hd => hd⟩)) rfl
    rw [List.forall₂_map_right_iff]
    refine h1.imp ?_
    intro p r hr
    obtain ⟨v, hv, hr⟩ := py_bind_ok.1 hr
    obtain ⟨t, ht, hr⟩ := py_bind_ok.1 hr
    exact ⟨Pulse.getBarePulse_slot hr, fun d hd => .bare hd hr⟩
  | @base c c' x _ h ih =>
    unfold Controls.updateBase at h
    obtain ⟨ts, h1, h⟩ := py_bind_ok.1 h
    obtain ⟨ps, h2, h⟩ := py_bind_ok.1 h
    obtain ⟨qs, h3, h⟩ := py_bind_ok.1 h
    rw [py_pure_ok] at h
    subst h
    rw [mapM_ok] at h2 h3
    refine ih.update ?_ ?_ ?_
    · refine h2.imp ?_
      intro p r hr
      obtain ⟨v, hv, hr⟩ := py_bind_ok.1 hr
      obtain ⟨t, ht, hr⟩ := py_bind_ok.1 hr
      exact ⟨Pulse.setBasePulse_slot hr, fun d hd => .base hd hr⟩
    · refine h3.imp ?_
      intro p r hr
      obtain ⟨v, hv, hr⟩ := py_bind_ok.1 hr
      exact Param.set_facts hr
    · exact forall2_map_eq (setTimes_keeps h1) (fun a b h => h.2.1)

/-! Scattering values to consecutive slots. -/

theorem foldl_set_range' (pre mid post vals : List K) (h : vals.length = mid.length) :
    ((List.range' pre.length vals.length).zip vals).foldl (fun a iv => a.set iv.1 iv.2) (pre ++ mid ++ post)
      = pre ++ vals ++ post := by
  induction vals generalizing pre mid with
  | nil =>
    have : mid = [] := List.length_eq_zero_iff.1 h.symm
    simp [this]
  | cons v vals ih =>
    cases mid with
    | nil => simp at h
    | cons m mid =>
      simp only [List.length_cons, List.range'_succ, List.zip_cons_cons, List.foldl_cons]
      have e : (pre ++ m :: mid ++ post).set pre.length v = (pre ++ [v]) ++ mid ++ post := by
        simp [List.set_append]
      rw [e]
      have := ih (pre ++ [v]) mid (by simpa using h)
      simp only [List.length_append, List.length_cons, List.length_nil, zero_add] at this
      rw [this]
      simp

theorem scatter_range' (pre mid post vals : List K) (h : vals.length = mid.length) :
    scatter (pre ++ mid ++ post) (List.range' pre.length mid.length) vals = .ok (pre ++ vals ++ post) := by
  unfold scatter
  have h1 : ((List.range' pre.length mid.length).all fun i => decide (i < (pre ++ mid ++ post).length)) = true := by
    simp only [List.all_eq_true, List.mem_range'_1, decide_eq_true_eq, List.length_append]
    intro i hi
    omega
  rw [if_neg (by simp [h]), if_pos h1]
  simp only [List.length_range', h, if_true]
  rw [← h, foldl_set_range' _ _ _ _ h]

theorem zeros_add (a b : ℕ) : (zeros (a + b) : List K) = zeros a ++ zeros b := by
  simp [zeros, List.replicate_append_replicate]

theorem scatter_pulses (vals : Pulse K → List K) {ps : List (Pulse K)} (pre : List K) (m : ℕ)
    (hc : PChain pre.length ps) (hv : ∀ p ∈ ps, (vals p).length = p.nParams) :
    ps.foldlM (fun s p => scatter s p.ctrlList (vals p)) (pre ++ zeros ((ps.map (·.nParams)).sum + m))
      = .ok (pre ++ (ps.map vals).flatten ++ zeros m) := by
  induction ps generalizing pre with
  | nil => simp [pure, Except.pure]
  | cons p ps ih =>
    obtain ⟨h1, h2, h3⟩ := hc
    simp only [List.foldlM_cons, List.map_cons, List.sum_cons, List.flatten_cons]
    have hl : (vals p).length = p.nParams := hv p (by simp)
    have hz : (zeros p.nParams : List K).length = p.nParams := by simp [zeros]
    have e : scatter (pre ++ zeros (p.nParams + (ps.map (·.nParams)).sum + m)) p.ctrlList (vals p)
        = .ok ((pre ++ vals p) ++ zeros ((ps.map (·.nParams)).sum + m)) := by
      rw [h1, add_assoc, zeros_add, ← List.append_assoc]
      have := scatter_range' pre (zeros p.nParams) (zeros ((ps.map (·.nParams)).sum + m)) (vals p) (by rw [hl, hz])
      rw [hz] at this
      exact this
    rw [e]
    simp only [bind, Except.bind]
    rw [ih (pre ++ vals p) (by simpa [hl] using h3) (fun q hq => hv q (by simp [hq]))]
    simp

theorem scatter_params (val : Param K → K) {ps : List (Param K)} (pre : List K) (hc : QChain pre.length ps) :
    ps.foldlM (fun s p => scatter s p.ctrlList [val p]) (pre ++ zeros ps.length)
      = .ok (pre ++ ps.map val) := by
  induction ps generalizing pre with
  | nil => simp [pure, Except.pure, zeros]
  | cons p ps ih =>
    obtain ⟨h1, h2, h3⟩ := hc
    simp only [List.foldlM_cons, List.map_cons, List.length_cons]
    have e : scatter (pre ++ zeros (ps.length + 1)) p.ctrlList [val p]
        = .ok ((pre ++ [val p]) ++ zeros ps.length) := by
      rw [h1, add_comm, zeros_add, ← List.append_assoc]
      exact scatter_range' pre (zeros 1) (zeros ps.length) [val p] rfl
    rw [e]
    simp only [bind, Except.bind]
    rw [ih (pre ++ [val p]) (by simpa using h3)]
    simp

theorem PulseReach.coeffs {M : MathFns K} {d : PulseDict K} {p : Pulse K} (h : PulseReach M d p) :
    p.scaleCoeffs = basisScale M d.amplitudeVariation p.nParams d.basis ∧ p.offsetCoeffs = zeros p.nParams := by
  induction h with
  | create h =>
    unfold mkPulse at h
    simp only at h
    split at h
    · simp at h
    · simp only [Except.ok.injEq] at h
      subst h
      exact ⟨rfl, rfl⟩
  | inputs x T _ ih => exact ih
  | get _ h ih =>
    unfold Pulse.getPulse at h
    obtain ⟨u, _, h⟩ := py_bind_ok.1 h
    rw [py_pure_ok] at h
    obtain ⟨rfl, rfl⟩ := Prod.mk.inj h
    exact ih
  | bare _ h ih =>
    unfold Pulse.getBarePulse at h
    obtain ⟨u, _, h⟩ := py_bind_ok.1 h
    rw [py_pure_ok] at h
    obtain ⟨rfl, rfl⟩ := Prod.mk.inj h
    exact ih
  | base _ h ih =>
    unfold Pulse.setBasePulse at h
    obtain ⟨u, _, h⟩ := py_bind_ok.1 h
    split at h
    · rw [py_pure_ok] at h; subst h; exact ih
    · obtain ⟨b, _, h⟩ := py_bind_ok.1 h
      rw [py_pure_ok] at h; subst h; exact ih
  | draw hp h ih =>
    unfold Pulse.drawSuper at h
    obtain ⟨u, hu, h⟩ := py_bind_ok.1 h
    rw [py_pure_ok] at h; subst h
    exact ih
  | index mi _ ih => exact ih

end
end QuOCS

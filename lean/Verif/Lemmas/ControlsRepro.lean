/-
In the standard configuration the controls object lets results be reproduced.
-/
import Verif.Model.Ops
import Verif.Spec.Reproduce
import Verif.Props.Controls

set_option linter.unusedSectionVars false

namespace QuOCS

section
variable {K : Type*} [Field K] [LinearOrder K] [IsStrictOrderedRing K]

/-- `iadd` is `bop` if it succeeds. -/
theorem bop_of_iadd {a b r : List K} (h : iadd a b = .ok r) : bop (· + ·) a b = .ok r := by
  unfold iadd at h
  unfold bop
  split at h
  · rename_i hl; rw [if_pos hl]; exact h
  · rename_i hl
    rw [if_neg hl]
    split at h
    · rename_i y
      rw [if_neg (by simpa using hl)]
      simpa using h
    · cases h

/-- The result of broadcasting, sample by sample. -/
theorem bop_assoc (a b s : List K) :
    (bop (· + ·) a b >>= fun r => bop (· + ·) r s) = (bop (· + ·) b s >>= fun r => bop (· + ·) a r) := by
  have hz : ∀ a b s : List K, List.zipWith (· + ·) (List.zipWith (· + ·) a b) s
      = List.zipWith (· + ·) a (List.zipWith (· + ·) b s) := by
    intro a
    induction a with
    | nil => intro b s; simp
    | cons x a ih =>
      intro b s
      cases b with
      | nil => simp
      | cons y b =>
        cases s with
        | nil => simp
        | cons z s => simp [ih, add_assoc]
  have hm1 : ∀ (x : K) (b s : List K), List.zipWith (· + ·) (b.map (fun t => x + t)) s
      = (List.zipWith (· + ·) b s).map (fun t => x + t) := by
    intro x b
    induction b with
    | nil => intro s; simp
    | cons y b ih =>
      intro s
      cases s with
      | nil => simp
      | cons z s => simp [ih, add_assoc]
  have hm2 : ∀ (y : K) (a s : List K), List.zipWith (· + ·) (a.map (fun t => t + y)) s
      = List.zipWith (· + ·) a (s.map (fun t => y + t)) := by
    intro y a
    induction a with
    | nil => intro s; simp
    | cons x a ih =>
      intro s
      cases s with
      | nil => simp
      | cons z s => simp [ih, add_assoc]
  have hm3 : ∀ (z : K) (a b : List K), List.zipWith (· + ·) a (b.map (fun t => t + z))
      = (List.zipWith (· + ·) a b).map (fun t => t + z) := by
    intro z a
    induction a with
    | nil => intro b; simp
    | cons x a ih =>
      intro b
      cases b with
      | nil => simp
      | cons y b => simp [ih, add_assoc]
  rcases a with _ | ⟨x, _ | ⟨x', a⟩⟩ <;> rcases b with _ | ⟨y, _ | ⟨y', b⟩⟩ <;> rcases s with _ | ⟨z, _ | ⟨z', s⟩⟩ <;>
    simp [bop, bind, Except.bind, add_assoc]
  · by_cases h : b.length = s.length <;> simp [h]
  · by_cases h : b.length = s.length <;> simp [h, add_assoc, hm1]
  · by_cases h : a.length = s.length <;> simp [h, List.zipWith_map_left, List.zipWith_map_right, add_assoc]
  · by_cases h : a.length = b.length <;> simp [h]
  · by_cases h : a.length = b.length <;> simp [h, add_assoc, hm3]
  · by_cases h : a.length = b.length <;> by_cases h' : b.length = s.length
    · simp [h, h', hz, add_assoc]
    · simp [h, h']
    · have : a.length ≠ s.length := fun e => h (e.trans h'.symm)
      simp [h', this]
    · simp [h, h']

/-- Adding zero samples changes nothing. -/
theorem bop_zeros {a : List K} {n : ℕ} (h : a.length = n ∨ n = 1) : bop (· + ·) a (zeros n) = .ok a := by
  rcases h with h | rfl
  · rw [bop_eq (by simp [zeros, h])]
    congr 1
    subst h
    induction a with
    | nil => rfl
    | cons x a ih => simp [zeros, List.replicate_succ] at ih ⊢; exact ih
  · rcases a with _ | ⟨x, _ | ⟨y, a⟩⟩ <;> simp [bop, zeros]

theorem shapingOfName_ne {s : String} {x : Shaping} (h : shapingOfName s = some x) (h1 : s ≠ "add_base_pulse")
    (h2 : s ≠ "add_new_update_pulse") : x ≠ .addBasePulse ∧ x ≠ .addNewUpdatePulse := by
  unfold shapingOfName at h
  rw [if_neg h1, if_neg h2] at h
  split at h
  · cases h; exact ⟨by decide, by decide⟩
  split at h
  · cases h; exact ⟨by decide, by decide⟩
  split at h
  · cases h; exact ⟨by decide, by decide⟩
  cases h

/-- The list of shaping steps around the base pulse and the update. -/
theorem KeepsBase.split {d : PulseDict K} (h : KeepsBase d) : ∃ pre post, shapingOptions d.shapingOptions =
    pre ++ (.addBasePulse :: .addNewUpdatePulse :: post) ∧ ∀ x ∈ pre ++ post, x ≠ .addBasePulse ∧ x ≠ .addNewUpdatePulse := by
  rcases h with h | ⟨pre, post, h, hne⟩
  · exact ⟨[.addInitialGuess], [.scalePulse, .limitPulse], by rw [h]; rfl, by decide⟩
  · refine ⟨pre.filterMap shapingOfName, post.filterMap shapingOfName, ?_, ?_⟩
    · rw [h]
      show (pre ++ "add_base_pulse" :: "add_new_update_pulse" :: post).filterMap shapingOfName = _
      rw [List.filterMap_append]
      rfl
    · intro x hx
      rw [← List.filterMap_append] at hx
      obtain ⟨s, hs, e⟩ := List.mem_filterMap.1 hx
      exact shapingOfName_ne e (hne s hs).1 (hne s hs).2

theorem foldlM_congr_mem {α β : Type*} {f g : β → α → Py β} {l : List α} (h : ∀ a ∈ l, ∀ b, f b a = g b a) (b : β) :
    l.foldlM f b = l.foldlM g b := by
  induction l generalizing b with
  | nil => rfl
  | cons a l ih =>
    rw [List.foldlM_cons, List.foldlM_cons, h a (by simp)]
    congr 1
    funext c
    exact ih (fun x hx => h x (by simp [hx])) c

/-- The pulse at zero coefficients after the base was updated with `v` is the pulse at `v` before. -/
theorem pulse_base {M : MathFns K} {d : PulseDict K} {p p' q : Pulse K} {v u : List K} {T : K} (hr : PulseReach M d p)
    (hs : KeepsBase d) (ho : d.overwrite = false) (hz : ZeroUpdate M d)
    (hb : p.basePulse.length = p.binsNumber)
    (hg : p.getPulse M v T = .ok (q, u)) (hu : p.setBasePulse M v T = .ok p') :
    p'.getPulse M (zeros p'.nParams) T = .ok (p'.setInputs (zeros p'.nParams) T, u) := by
  obtain ⟨_, _, _, hsh, hbins, _, _, hov, hbas⟩ := hr.fields
  have hr' : PulseReach M d p' := .base hr hu
  have hn : p'.nParams = d.declared := hr'.w_length.2.1
  obtain ⟨q0, h0⟩ := hz p' hr' T
  rw [← hn] at h0
  unfold Pulse.getBarePulse at h0
  obtain ⟨z, hz1, h0⟩ := py_bind_ok.1 h0
  rw [py_pure_ok] at h0
  obtain ⟨-, rfl⟩ := Prod.mk.inj h0
  unfold Pulse.setBasePulse at hu
  obtain ⟨sh, hsh1, hu⟩ := py_bind_ok.1 hu
  have hov' : (p.setInputs v T).overwrite = false := by rw [← ho, ← hov]; rfl
  rw [hov'] at hu
  simp only [Bool.false_eq_true, if_false] at hu
  obtain ⟨b, hb1, hu⟩ := py_bind_ok.1 hu
  rw [py_pure_ok] at hu
  have hb2 := bop_of_iadd hb1
  have hbl : b.length = p.binsNumber := (iadd_length hb1).trans hb
  unfold Pulse.getPulse at hg ⊢
  obtain ⟨u', hg1, hg⟩ := py_bind_ok.1 hg
  rw [py_pure_ok] at hg
  obtain ⟨-, rfl⟩ := Prod.mk.inj hg
  rw [py_bind_ok]
  refine ⟨u', ?_, rfl⟩
  obtain ⟨pre, post, hsplit, hne⟩ := hs.split
  have hshape : p.shaping = pre ++ (.addBasePulse :: .addNewUpdatePulse :: post) := by rw [hsh, hsplit]
  have hshape' : p'.shaping = p.shaping := by rw [← hu]; rfl
  have hother : ∀ s, s ≠ .addBasePulse ∧ s ≠ .addNewUpdatePulse → ∀ a, (p'.setInputs (zeros p'.nParams) T).applyStep M a s =
      (p.setInputs v T).applyStep M a s := by
    rintro s ⟨h1, h2⟩ a
    rw [← hu]
    cases s
    · rfl
    · exact absurd rfl h1
    · exact absurd rfl h2
    · rfl
    · rfl
  unfold Pulse.build at hg1 ⊢
  rw [show (p.setInputs v T).shaping = p.shaping from rfl, hshape, List.foldlM_append] at hg1
  rw [show (p'.setInputs (zeros p'.nParams) T).shaping = p'.shaping from rfl, hshape', hshape, List.foldlM_append]
  obtain ⟨a1, ha1, hg1⟩ := py_bind_ok.1 hg1
  rw [List.foldlM_cons] at hg1
  obtain ⟨a2, ha2, hg1⟩ := py_bind_ok.1 hg1
  rw [List.foldlM_cons] at hg1
  obtain ⟨a3, ha3, hg1⟩ := py_bind_ok.1 hg1
  simp only [Pulse.applyStep] at ha2 ha3
  rw [hsh1] at ha3
  have ha3 : bop (· + ·) a2 sh = .ok a3 := ha3
  have hassoc := bop_assoc a1 p.basePulse sh
  rw [show bop (· + ·) a1 p.basePulse = .ok a2 from ha2, show bop (· + ·) p.basePulse sh = .ok b from hb2] at hassoc
  have hab : bop (· + ·) a1 b = .ok a3 := by
    rw [← ha3]; exact hassoc.symm
  have hlen : a3.length = p.binsNumber ∨ p.binsNumber = 1 := by
    rcases bop_length hab with ⟨h1, h2⟩ | ⟨h1, h2⟩ | ⟨h1, h2⟩
    · left; omega
    · left; omega
    · right; omega
  have hbin' : p'.binsNumber = p.binsNumber := by rw [← hu]; rfl
  have e2 : bop (· + ·) a1 (p'.setInputs (zeros p'.nParams) T).basePulse = .ok a3 := by
    rw [← hab, ← hu]; rfl
  have e3 : bop (· + ·) a3 (zeros d.binsNumber) = .ok a3 := by
    rw [← hbins]; exact bop_zeros hlen
  rw [foldlM_congr_mem (fun s hs => hother s (hne s (List.mem_append.2 (.inl hs)))),
    show zeros (p'.setInputs (zeros p'.nParams) T).binsNumber = zeros (p.setInputs v T).binsNumber by
      rw [show (p'.setInputs (zeros p'.nParams) T).binsNumber = p'.binsNumber from rfl, hbin']; rfl, ha1]
  simp only [bind, Except.bind]
  rw [List.foldlM_cons, show Pulse.applyStep M (p'.setInputs (zeros p'.nParams) T) a1 .addBasePulse = .ok a3 from e2]
  simp only [bind, Except.bind]
  rw [List.foldlM_cons, show Pulse.applyStep M (p'.setInputs (zeros p'.nParams) T) a3 .addNewUpdatePulse = .ok a3 by
    simp only [Pulse.applyStep, hz1, bind, Except.bind]; exact e3]
  simp only [bind, Except.bind]
  rw [foldlM_congr_mem (fun s hs => hother s (hne s (List.mem_append.2 (.inr hs))))]
  exact hg1

/-- Without `overwrite_base_pulse` the base pulse keeps its length. -/
theorem PulseReach.base_length {M : MathFns K} {d : PulseDict K} {p : Pulse K} (hr : PulseReach M d p)
    (ho : d.overwrite = false) : p.basePulse.length = d.binsNumber := by
  induction hr with
  | create h =>
    unfold mkPulse at h
    simp only at h
    split at h
    · simp at h
    · simp only [Except.ok.injEq] at h
      subst h
      simp [zeros]
  | inputs x T _ ih => exact ih
  | get _ h ih =>
    unfold Pulse.getPulse at h
    obtain ⟨u, _, h⟩ := py_bind_ok.1 h
    rw [py_pure_ok] at h
    obtain ⟨rfl, rfl⟩ := Prod.mk.inj h
    exact ih
  | bare _ h ih =>
    unfold Pulse.getBarePulse at h
    obtain ⟨u, _, h⟩ := py_bind_ok.1 h
    rw [py_pure_ok] at h
    obtain ⟨rfl, rfl⟩ := Prod.mk.inj h
    exact ih
  | @base p q x T hp h ih =>
    unfold Pulse.setBasePulse at h
    obtain ⟨u, _, h⟩ := py_bind_ok.1 h
    have : (p.setInputs x T).overwrite = false := by rw [← ho, ← hp.fields.2.2.2.2.2.2.2.1]; rfl
    rw [this] at h
    simp only [Bool.false_eq_true, if_false] at h
    obtain ⟨b, hb, h⟩ := py_bind_ok.1 h
    rw [py_pure_ok] at h
    subst h
    exact (iadd_length hb).trans ih
  | draw _ h ih =>
    unfold Pulse.drawSuper at h
    obtain ⟨u, _, h⟩ := py_bind_ok.1 h
    rw [py_pure_ok] at h; subst h
    exact ih
  | index mi _ ih => exact ih

/-- At zero coefficients the pulse does not depend on the drawn basis. -/
theorem pulse_basis {M : MathFns K} {d : PulseDict K} {p p' q : Pulse K} {w u : List K} {T : K} (hr : PulseReach M d p)
    (hr' : PulseReach M d p') (hp' : p' = { p with w := w }) (hz : ZeroUpdate M d)
    (hg : p.getPulse M (zeros p.nParams) T = .ok (q, u)) :
    p'.getPulse M (zeros p.nParams) T = .ok (p'.setInputs (zeros p.nParams) T, u) := by
  obtain ⟨_, _, _, hsh, hbins, _, _, hov, hbas⟩ := hr.fields
  have hn : p.nParams = d.declared := hr.w_length.2.1
  have key : ∀ p, PulseReach M d p → (p.setInputs (zeros d.declared) T).shaped M = .ok (zeros d.binsNumber) := by
    intro p hp
    obtain ⟨q0, h0⟩ := hz p hp T
    unfold Pulse.getBarePulse at h0
    obtain ⟨z, hz1, h0⟩ := py_bind_ok.1 h0
    rw [py_pure_ok] at h0
    obtain ⟨-, rfl⟩ := Prod.mk.inj h0
    exact hz1
  have k1 := key _ hr
  have k2 := key _ hr'
  rw [← hn] at k1 k2
  unfold Pulse.getPulse at hg ⊢
  obtain ⟨u', hg1, hg⟩ := py_bind_ok.1 hg
  rw [py_pure_ok] at hg
  obtain ⟨-, rfl⟩ := Prod.mk.inj hg
  rw [py_bind_ok]
  refine ⟨u', ?_, rfl⟩
  unfold Pulse.build at hg1 ⊢
  rw [← hg1, show (p'.setInputs (zeros p.nParams) T).shaping = (p.setInputs (zeros p.nParams) T).shaping by rw [hp']; rfl,
    show (p'.setInputs (zeros p.nParams) T).binsNumber = (p.setInputs (zeros p.nParams) T).binsNumber by rw [hp']; rfl]
  refine foldlM_congr_mem (fun s _ a => ?_) _
  cases s
  case addNewUpdatePulse => simp only [Pulse.applyStep, k1, k2]
  all_goals rw [hp']; rfl

/-- Building a pulse stores only the inputs of the next build. -/
theorem pulse_get_again {M : MathFns K} {p q : Pulse K} {v u y : List K} {T T' : K}
    (h : p.getPulse M v T = .ok (q, u)) : q.getPulse M y T' = p.getPulse M y T' := by
  unfold Pulse.getPulse at h
  obtain ⟨u, _, h⟩ := py_bind_ok.1 h
  rw [py_pure_ok] at h
  obtain ⟨rfl, rfl⟩ := Prod.mk.inj h
  rfl

theorem forall2_and_right {α β : Type*} {R : α → β → Prop} {l : List α} {r : List β} {P : β → Prop}
    (h : List.Forall₂ R l r) (hP : ∀ b ∈ r, P b) : List.Forall₂ (fun a b => R a b ∧ P b) l r := by
  induction h with
  | nil => exact .nil
  | cons h1 _ ih => exact .cons ⟨h1, hP _ (by simp)⟩ (ih fun b hb => hP b (by simp [hb]))

theorem forall2_and_left {α β : Type*} {R : α → β → Prop} {l : List α} {r : List β} {P : α → Prop}
    (h : List.Forall₂ R l r) (hP : ∀ a ∈ l, P a) : List.Forall₂ (fun a b => R a b ∧ P a) l r := by
  induction h with
  | nil => exact .nil
  | cons h1 _ ih => exact .cons ⟨h1, hP _ (by simp)⟩ (ih fun b hb => hP b (by simp [hb]))

theorem setTimes_fixed {x : List K} {ts : List (String × TimeObj K)} (h : ∀ t ∈ ts, t.2.isOptimization = false) :
    setTimes x ts = .ok ts := by
  unfold setTimes
  rw [mapM_ok]
  induction ts with
  | nil => exact .nil
  | cons t ts ih =>
    refine .cons ?_ (ih fun s hs => h s (by simp [hs]))
    simp [h t (by simp), pure, Except.pure]

theorem gather_zeros {S : ℕ} {rest : List K} {idx : List ℕ} (h : ∀ i ∈ idx, i < S) :
    gather (zeros S ++ rest) idx = .ok (zeros idx.length) := by
  unfold gather
  rw [mapM_ok]
  induction idx with
  | nil => exact .nil
  | cons i idx ih =>
    rw [List.length_cons]
    refine .cons ?_ (ih fun j hj => h j (by simp [hj]))
    have := h i (by simp)
    unfold getIdx
    rw [List.getElem?_append_left (by simpa [zeros] using this)]
    simp [zeros, this]

theorem gather_param {pre : List K} {ps : List (Param K)} (h : QChain pre.length ps) :
    ∀ p ∈ ps, gather (pre ++ ps.map (·.value)) p.ctrlList = .ok [p.value] := by
  induction ps generalizing pre with
  | nil => simp
  | cons q ps ih =>
    obtain ⟨h1, h2, h3⟩ := h
    intro p hp
    rcases List.mem_cons.1 hp with rfl | hp
    · rw [h1]
      simp [gather, getIdx, bind, Except.bind, pure, Except.pure]
    · have := ih (pre := pre ++ [q.value]) (by simpa using h3) p hp
      simpa using this

theorem PChain_lt {k : ℕ} {ps : List (Pulse K)} (h : PChain k ps) :
    ∀ p ∈ ps, (∀ i ∈ p.ctrlList, i < k + (ps.map (·.nParams)).sum) ∧ p.ctrlList.length = p.nParams := by
  induction ps generalizing k with
  | nil => simp
  | cons q ps ih =>
    obtain ⟨h1, h2, h3⟩ := h
    intro p hp
    rcases List.mem_cons.1 hp with rfl | hp
    · rw [h1]
      refine ⟨?_, by simp⟩
      intro i hi
      simp only [List.mem_range'_1] at hi
      simp only [List.map_cons, List.sum_cons]
      omega
    · obtain ⟨a, b⟩ := ih h3 p hp
      refine ⟨?_, b⟩
      intro i hi
      have := a i hi
      simp only [List.map_cons, List.sum_cons]
      omega

end

section
variable {K : Type} [Field K] [LinearOrder K] [IsStrictOrderedRing K]
variable {M : MathFns K} {pd : List (PulseDict K)} {td : List (TimeDict K)} {rd : List (ParamDict K)}
variable {rnd : ℕ → ℕ → List K} {simplex : ℕ → List K → List K → Py (List (List K))}

/-- What is shown, control by control (fixed times). -/
theorem shows_iff {c : Controls K} (ht : ∀ t ∈ c.times, t.2.isOptimization = false) {x : List K} {o : ControlsOut K} :
    Shows (controlsOps M rnd simplex) c x o ↔ ∃ (ps : List (Pulse K × List K)) (prs : List (Param K × K)),
      List.Forall₂ (fun p r => ∃ v t, gather x p.ctrlList = .ok v ∧ dictGet c.times p.timeName = .ok t ∧
        p.getPulse M v t.getTime = .ok r) c.pulses ps ∧
      List.Forall₂ (fun p r => ∃ v, gather x p.ctrlList = .ok v ∧ p.getParameter v = .ok r) c.params prs ∧
      o = { pulses := ps.map (·.2), timegrids := ps.map (·.1.timeGrid), parameters := prs.map (·.2) } := by
  have e1 : ∀ ps : List (Pulse K × List K), List.Forall₂ (fun p r => ∃ v t, gather x p.ctrlList = .ok v ∧
      dictGet c.times p.timeName = .ok t ∧ p.getPulse M v t.getTime = .ok r) c.pulses ps ↔
      c.pulses.mapM (fun p => do
        let v ← gather x p.ctrlList
        let t ← dictGet c.times p.timeName
        p.getPulse M v t.getTime) = .ok ps := by
    intro ps
    rw [mapM_ok]
    constructor
    · refine List.Forall₂.imp ?_
      rintro p r ⟨v, t, h1, h2, h3⟩
      exact py_bind_ok.2 ⟨v, h1, py_bind_ok.2 ⟨t, h2, h3⟩⟩
    · refine List.Forall₂.imp ?_
      intro p r h
      obtain ⟨v, h1, h⟩ := py_bind_ok.1 h
      obtain ⟨t, h2, h⟩ := py_bind_ok.1 h
      exact ⟨v, t, h1, h2, h⟩
  have e2 : ∀ ps : List (Param K × K), List.Forall₂ (fun p r => ∃ v, gather x p.ctrlList = .ok v ∧
      p.getParameter v = .ok r) c.params ps ↔
      c.params.mapM (fun p => do
        let v ← gather x p.ctrlList
        p.getParameter v) = .ok ps := by
    intro ps
    rw [mapM_ok]
    constructor
    · refine List.Forall₂.imp ?_
      rintro p r ⟨v, h1, h3⟩
      exact py_bind_ok.2 ⟨v, h1, h3⟩
    · refine List.Forall₂.imp ?_
      intro p r h
      obtain ⟨v, h1, h⟩ := py_bind_ok.1 h
      exact ⟨v, h1, h⟩
  simp only [e1, e2]
  unfold Shows controlsOps Controls.getControls
  simp only [setTimes_fixed ht]
  constructor
  · intro h
    generalize he : (do
      let ts ← Except.ok c.times
      let ps ← c.pulses.mapM (fun p => do
        let v ← gather x p.ctrlList
        let t ← dictGet ts p.timeName
        p.getPulse M v t.getTime)
      let prs ← c.params.mapM (fun p => do
        let v ← gather x p.ctrlList
        p.getParameter v)
      pure (({ pulses := ps.map (·.1), params := prs.map (·.1), times := ts } : Controls K),
        ({ pulses := ps.map (·.2), timegrids := ps.map (·.1.timeGrid), parameters := prs.map (·.2) } : ControlsOut K))
        : Py (Controls K × ControlsOut K)) = r at h
    cases r with
    | error e => simp [Except.map] at h
    | ok r =>
      obtain ⟨ts, hts, he⟩ := py_bind_ok.1 he
      cases hts
      obtain ⟨ps, hps, he⟩ := py_bind_ok.1 he
      obtain ⟨qs, hqs, he⟩ := py_bind_ok.1 he
      rw [py_pure_ok] at he
      subst he
      simp only [Except.map, Except.ok.injEq] at h
      exact ⟨ps, qs, hps, hqs, h.symm⟩
  · rintro ⟨ps, prs, hps, hprs, rfl⟩
    simp only [bind, Except.bind] at hps hprs ⊢
    simp only [hps, hprs, pure, Except.pure, Except.map]

/-- What one object shows at `x` the other shows at `x'`, if this holds control by control. -/
theorem shows_transfer {c c' : Controls K} (ht : ∀ t ∈ c.times, t.2.isOptimization = false) {x x' : List K}
    {o : ControlsOut K} (htimes : c'.times = c.times)
    (hp : List.Forall₂ (fun p p' : Pulse K => p'.timeName = p.timeName ∧ ∀ v T r, gather x p.ctrlList = .ok v →
      p.getPulse M v T = .ok r → ∃ v' r', gather x' p'.ctrlList = .ok v' ∧ p'.getPulse M v' T = .ok r' ∧ r'.2 = r.2)
      c.pulses c'.pulses)
    (hb : List.Forall₂ (fun p p' : Pulse K => p'.binsNumber = p.binsNumber) c.pulses c'.pulses)
    (hq : List.Forall₂ (fun p p' : Param K => ∀ v r, gather x p.ctrlList = .ok v →
      p.getParameter v = .ok r → ∃ v' r', gather x' p'.ctrlList = .ok v' ∧ p'.getParameter v' = .ok r' ∧ r'.2 = r.2)
      c.params c'.params)
    (h : Shows (controlsOps M rnd simplex) c x o) : Shows (controlsOps M rnd simplex) c' x' o := by
  rw [shows_iff ht] at h
  rw [shows_iff (by rw [htimes]; exact ht), htimes]
  obtain ⟨ps, prs, h1, h2, rfl⟩ := h
  have hg : ∀ {p q : Pulse K} {v u : List K} {T : K}, p.getPulse M v T = .ok (q, u) →
      q.timeGrid = linspace0 T p.binsNumber := by
    intro p q v u T h
    unfold Pulse.getPulse at h
    obtain ⟨u, _, h⟩ := py_bind_ok.1 h
    rw [py_pure_ok] at h
    obtain ⟨rfl, rfl⟩ := Prod.mk.inj h
    rfl
  have A : ∃ ps' : List (Pulse K × List K), List.Forall₂ (fun p r => ∃ v t, gather x' p.ctrlList = .ok v ∧
      dictGet c.times p.timeName = .ok t ∧ p.getPulse M v t.getTime = .ok r) c'.pulses ps' ∧
      ps'.map (·.2) = ps.map (·.2) ∧ ps'.map (·.1.timeGrid) = ps.map (·.1.timeGrid) := by
    generalize c'.pulses = l' at hp hb ⊢
    generalize c.pulses = l at hp hb h1
    induction h1 generalizing l' with
    | nil => cases hp; exact ⟨[], .nil, rfl, rfl⟩
    | cons h1 h2 ih =>
      cases hp with
      | cons e hp =>
        cases hb with
        | cons b hb =>
          obtain ⟨ps', i1, i2, i3⟩ := ih _ hp hb
          obtain ⟨v, t, a1, a2, a3⟩ := h1
          obtain ⟨v', r', b1, b2, b3⟩ := e.2 v _ _ a1 a3
          refine ⟨r' :: ps', .cons ⟨v', t, b1, by rw [e.1]; exact a2, b2⟩ i1, by simp [b3, i2], ?_⟩
          have g1 := hg (q := r'.1) (u := r'.2) b2
          have g2 := hg (q := _) (u := _) a3
          simp [i3, g1, g2, b]
  have B : ∃ ps' : List (Param K × K), List.Forall₂ (fun p r => ∃ v, gather x' p.ctrlList = .ok v ∧
      p.getParameter v = .ok r) c'.params ps' ∧ ps'.map (·.2) = prs.map (·.2) := by
    generalize c'.params = l' at hq ⊢
    generalize c.params = l at hq h2
    induction h2 generalizing l' with
    | nil => cases hq; exact ⟨[], .nil, rfl⟩
    | cons h1 h2 ih =>
      cases hq with
      | cons e hq =>
        obtain ⟨ps', i1, i2⟩ := ih _ hq
        obtain ⟨v, a1, a3⟩ := h1
        obtain ⟨v', r', b1, b2, b3⟩ := e v _ a1 a3
        exact ⟨r' :: ps', .cons ⟨v', b1, b2⟩ i1, by simp [b3, i2]⟩
  obtain ⟨ps', a1, a2, a3⟩ := A
  obtain ⟨qs', b1, b2⟩ := B
  exact ⟨ps', qs', a1, b1, by rw [a2, a3, b2]⟩

theorem CInv.declared {c : Controls K} (h : CInv M pd td rd c) :
    c.pulses.map (·.nParams) = pd.map (·.declared) :=
  forall2_map_eq h.reach (fun _ _ hd => hd.w_length.2.1)

/-- The mean has zero at the slots of the pulses. -/
theorem gather_mean_pulse {c : Controls K} (h : CInv M pd td rd c) (rest : List K) :
    ∀ p ∈ c.pulses, gather (zeros (pd.map (·.declared)).sum ++ rest) p.ctrlList = .ok (zeros p.nParams) := by
  intro p hp
  obtain ⟨h1, h2⟩ := PChain_lt h.pchain p hp
  rw [← h2]
  refine gather_zeros ?_
  rw [← h.declared]
  simpa using h1

/-- The mean has the value of a parameter at its slot. -/
theorem gather_mean_param {c : Controls K} (h : CInv M pd td rd c) :
    ∀ p ∈ c.params, gather (zeros (pd.map (·.declared)).sum ++ c.params.map (·.value)) p.ctrlList = .ok [p.value] := by
  refine gather_param ?_
  have := h.qchain
  rw [h.declared] at this
  simpa [zeros] using this

theorem Param.checkLimits_idem {p : Param K} (h : p.lower ≤ p.upper) (x : K) :
    p.checkLimits (p.checkLimits x) = p.checkLimits x := by
  unfold Param.checkLimits
  rcases le_total p.lower x with h1 | h1
  · rw [max_eq_right h1]
    have : p.lower ≤ min x p.upper := le_min h1 h
    rw [max_eq_right this]
    simp
  · rw [max_eq_left h1, min_eq_left h, max_self, min_eq_left h]

/-- What choosing a new basis changes. -/
theorem selectBasis_parts {c c' : Controls K} {r : ℕ → List K} (h : CInv M pd td rd c) (hs : c.selectBasis r = .ok c') :
    c'.times = c.times ∧ c'.params = c.params ∧
      List.Forall₂ (fun p p' : Pulse K => (∃ w, p' = { p with w := w }) ∧ ∀ d, PulseReach M d p → PulseReach M d p')
        c.pulses c'.pulses := by
  have hrefl : ∀ l : List (Pulse K), List.Forall₂ (fun p p' : Pulse K => (∃ w, p' = { p with w := w }) ∧
      ∀ d, PulseReach M d p → PulseReach M d p') l l := by
    intro l
    induction l with
    | nil => exact .nil
    | cons p l ih => exact .cons ⟨⟨p.w, rfl⟩, fun d hd => hd⟩ ih
  unfold Controls.selectBasis at hs
  generalize List.range c.pulses.length = l at hs
  induction l generalizing c with
  | nil =>
    simp only [List.foldlM_nil] at hs
    rw [py_pure_ok] at hs
    subst hs
    exact ⟨rfl, rfl, hrefl _⟩
  | cons i l ih =>
    rw [List.foldlM_cons] at hs
    obtain ⟨c1, h1, hs⟩ := py_bind_ok.1 hs
    have hc1 := h.selectAt h1
    obtain ⟨i1, i2, i3⟩ := ih hc1 hs
    have step : c1.times = c.times ∧ c1.params = c.params ∧
        List.Forall₂ (fun p p' : Pulse K => (∃ w, p' = { p with w := w }) ∧ ∀ d, PulseReach M d p → PulseReach M d p')
          c.pulses c1.pulses := by
      unfold Controls.selectBasisAt at h1
      split at h1
      · simp only [Except.ok.injEq] at h1; subst h1; exact ⟨rfl, rfl, hrefl _⟩
      · rename_i p hp
        split at h1
        · obtain ⟨p', hp', h1⟩ := py_bind_ok.1 h1
          rw [py_pure_ok] at h1
          have hR : (∃ w, p' = { p with w := w }) ∧ ∀ d, PulseReach M d p → PulseReach M d p' := by
            refine ⟨?_, fun d hd => .draw hd hp'⟩
            unfold Pulse.drawSuper at hp'
            obtain ⟨u, _, hp'⟩ := py_bind_ok.1 hp'
            rw [py_pure_ok] at hp'
            exact ⟨u, hp'.symm⟩
          have hcI : CInv M pd td rd { c with pulses := c.pulses.set i p' } := by
            refine ⟨forall2_set h.reach i hp (fun d hd => hR.2 d hd), ?_, ?_, h.params, h.fixed⟩
            · exact PChain_congr (map_set_same hp (Pulse.drawSuper_slot hp')) h.pchain
            · have := nParams_of_slotData (map_set_same hp (Pulse.drawSuper_slot hp'))
              simp only [this]
              exact h.qchain
          rw [Controls.reindex_id hcI] at h1
          subst h1
          refine ⟨rfl, rfl, ?_⟩
          exact forall2_set (hrefl c.pulses) i hp (fun a ha => by
            obtain ⟨⟨w, rfl⟩, h2⟩ := ha
            obtain ⟨⟨w', rfl⟩, h3⟩ := hR
            exact ⟨⟨w', rfl⟩, fun d hd => h3 d (h2 d hd)⟩)
        · simp only [Except.ok.injEq] at h1; subst h1; exact ⟨rfl, rfl, hrefl _⟩
    obtain ⟨s1, s2, s3⟩ := step
    refine ⟨i1.trans s1, i2.trans s2, forall2_comp s3 i3 ?_⟩
    rintro p q r ⟨⟨w, rfl⟩, h2⟩ ⟨⟨w', rfl⟩, h3⟩
    exact ⟨⟨w', rfl⟩, fun d hd => h3 d (h2 d hd)⟩

/-- A new basis keeps what the object shows at its mean. -/
theorem basis_standard (hz : ∀ d ∈ pd, ZeroUpdate M d) (hT : FixedTimes td) :
    ∀ (k : ℕ) (c c' : Controls K), ControlsReach M pd td rd c → (controlsOps M rnd simplex).selectBasis k c = .ok c' →
      ControlsReach M pd td rd c' ∧
      ∀ o, ShowsMean (controlsOps M rnd simplex) c o → ShowsMean (controlsOps M rnd simplex) c' o := by
  have hfix : ∀ {c}, ControlsReach M pd td rd c → ∀ t ∈ c.times, t.2.isOptimization = false :=
    fun hc => (CInv.of_reach hc).fixed hT
  intro k c c' hc h
  have hc' : ControlsReach M pd td rd c' := .select hc h
  refine ⟨hc', ?_⟩
  rintro o ⟨x, hx, hxo⟩
  have I := CInv.of_reach hc
  obtain ⟨h1, h2, h3⟩ := selectBasis_parts I h
  have hx : c.mean = .ok x := hx
  rw [C21_start_point hc] at hx
  cases hx
  refine ⟨zeros (pd.map (·.declared)).sum ++ c.params.map (·.value), ?_, ?_⟩
  · rw [← h2]; exact C21_start_point hc'
  · have hrd : ∀ p ∈ c.pulses, (∃ d ∈ pd, PulseReach M d p) ∧
        gather (zeros (pd.map (·.declared)).sum ++ c.params.map (·.value)) p.ctrlList = .ok (zeros p.nParams) :=
      fun p hp => by
        obtain ⟨d, hd, hr⟩ := forall2_right_mem I.reach hp
        exact ⟨⟨d, hd, hr⟩, gather_mean_pulse I _ p hp⟩
    refine shows_transfer (hfix hc) h1 ?_ ?_ ?_ hxo
    · refine (forall2_and_left h3 hrd).imp ?_
      rintro p p' ⟨⟨⟨w, hw⟩, hr'⟩, ⟨d, hd, hr⟩, hg⟩
      refine ⟨by rw [hw], ?_⟩
      intro v T r hv hget
      rw [hg] at hv; cases hv
      refine ⟨_, _, by rw [hw]; exact hg, pulse_basis hr (hr' d hr) hw (hz d hd)
        (q := r.1) (u := r.2) hget, rfl⟩
    · refine h3.imp ?_
      rintro p p' ⟨⟨w, hw⟩, _⟩
      rw [hw]
    · rw [h2]
      generalize zeros (pd.map (·.declared)).sum ++ c.params.map (·.value) = y
      generalize c.params = l
      induction l with
      | nil => exact .nil
      | cons p l ih => exact .cons (fun v r hv hr => ⟨v, r, hv, hr, rfl⟩) ih

/-- The controls object of the library lets results be reproduced in the standard configuration. -/
theorem reproducible_standard (hS : StandardControls M pd td rd) :
    Reproducible (controlsOps M rnd simplex) (ControlsReach M pd td rd) := by
  have hfix : ∀ {c}, ControlsReach M pd td rd c → ∀ t ∈ c.times, t.2.isOptimization = false :=
    fun hc => (CInv.of_reach hc).fixed hS.times
  refine ⟨?_, ?_, ?_⟩
  · -- building
    intro c x c' o hc h
    refine ⟨.get hc h, ?_⟩
    intro y o' hy
    obtain ⟨ts, h1, h2, h3, h4, h5, h6, h7⟩ := getControls_parts h
    rw [setTimes_fixed (hfix hc)] at h1
    cases h1
    have hpl : List.Forall₂ (fun p q : Pulse K => ∃ v T u, p.getPulse M v T = .ok (q, u)) c.pulses c'.pulses := by
      have : c'.pulses = (c'.pulses.zip o.pulses).map Prod.fst := by
        rw [List.map_fst_zip (le_of_eq h4.symm)]
      rw [this, List.forall₂_map_right_iff]
      refine h3.imp ?_
      rintro p ⟨q, u⟩ ⟨v, t, _, _, hr⟩
      exact ⟨v, _, u, hr⟩
    refine shows_transfer (hfix hc) h2 ?_ ?_ ?_ hy
    · refine hpl.imp ?_
      rintro p q ⟨v, T, u, hr⟩
      refine ⟨?_, ?_⟩
      · unfold Pulse.getPulse at hr
        obtain ⟨u, _, hr⟩ := py_bind_ok.1 hr
        rw [py_pure_ok] at hr
        obtain ⟨rfl, rfl⟩ := Prod.mk.inj hr
        rfl
      · intro v' T' r hv' hr'
        have hsl : q.ctrlList = p.ctrlList := congrArg (·.1) (Pulse.getPulse_slot hr)
        exact ⟨v', r, by rw [hsl]; exact hv', by rw [pulse_get_again hr]; exact hr', rfl⟩
    · refine hpl.imp ?_
      rintro p q ⟨v, T, u, hr⟩
      unfold Pulse.getPulse at hr
      obtain ⟨u, _, hr⟩ := py_bind_ok.1 hr
      rw [py_pure_ok] at hr
      obtain ⟨rfl, rfl⟩ := Prod.mk.inj hr
      rfl
    · refine h6.imp ?_
      rintro p q ⟨v, hv, hq⟩ v' r hv' hr
      unfold Param.setParameter at hq
      obtain ⟨a, ha, hq⟩ := py_bind_ok.1 hq
      rw [py_pure_ok] at hq
      subst hq
      unfold Param.getParameter Param.setParameter at hr
      obtain ⟨p1, hp1, hr⟩ := py_bind_ok.1 hr
      obtain ⟨b, hb, hp1⟩ := py_bind_ok.1 hp1
      rw [py_pure_ok] at hp1 hr
      subst hp1 hr
      refine ⟨v', _, hv', ?_, rfl⟩
      unfold Param.getParameter Param.setParameter
      exact py_bind_ok.2 ⟨_, py_bind_ok.2 ⟨b, hb, rfl⟩, rfl⟩
  · -- new base
    intro c x c' hc h
    have hc' : ControlsReach M pd td rd c' := .base hc h
    refine ⟨hc', ?_⟩
    intro o ho
    refine ⟨_, C21_start_point hc', ?_⟩
    have I := CInv.of_reach hc
    have I' := CInv.of_reach hc'
    have h : c.updateBase M x = .ok c' := h
    unfold Controls.updateBase at h
    rw [setTimes_fixed (hfix hc)] at h
    obtain ⟨ts, h0, h⟩ := py_bind_ok.1 h
    cases h0
    obtain ⟨ps, hps, h⟩ := py_bind_ok.1 h
    obtain ⟨qs, hqs, h⟩ := py_bind_ok.1 h
    rw [py_pure_ok] at h
    rw [mapM_ok] at hps hqs
    have e1 : c'.pulses = ps := by rw [← h]
    have e2 : c'.params = qs := by rw [← h]
    have e3 : c'.times = c.times := by rw [← h]
    rw [← e1] at hps
    rw [← e2] at hqs
    have hslot : ∀ {p q : Pulse K} {v : List K} {T : K}, p.setBasePulse M v T = .ok q →
        q.timeName = p.timeName ∧ q.binsNumber = p.binsNumber := by
      intro p q v T hq
      unfold Pulse.setBasePulse at hq
      obtain ⟨u, _, hq⟩ := py_bind_ok.1 hq
      split at hq
      · rw [py_pure_ok] at hq; subst hq; exact ⟨rfl, rfl⟩
      · obtain ⟨b, _, hq⟩ := py_bind_ok.1 hq
        rw [py_pure_ok] at hq; subst hq; exact ⟨rfl, rfl⟩
    -- which times the pulses use
    rw [shows_iff (hfix hc)] at ho
    rw [shows_iff (hfix hc'), e3]
    obtain ⟨rs, prs, s1, s2, rfl⟩ := ho
    have hgp := gather_mean_pulse I' (c'.params.map (·.value))
    have hgq := gather_mean_param I'
    have hrd : ∀ p ∈ c.pulses, ∃ d ∈ pd, PulseReach M d p := fun p hp => by
      obtain ⟨d, hd, hr⟩ := forall2_right_mem I.reach hp
      exact ⟨d, hd, hr⟩
    have hlim : ∀ p ∈ c'.params, p.lower ≤ p.upper := by
      intro p hp
      obtain ⟨d, hd, hr⟩ := forall2_right_mem I'.params hp
      rw [hr.2.1, hr.2.2.1]
      exact hS.limits d hd
    have A : ∃ ps' : List (Pulse K × List K), List.Forall₂ (fun p r => ∃ v t,
        gather (zeros (pd.map (·.declared)).sum ++ c'.params.map (·.value)) p.ctrlList = .ok v ∧
        dictGet c.times p.timeName = .ok t ∧ p.getPulse M v t.getTime = .ok r) c'.pulses ps' ∧
        ps'.map (·.2) = rs.map (·.2) ∧ ps'.map (·.1.timeGrid) = rs.map (·.1.timeGrid) := by
      generalize c'.pulses = l' at hps hgp
      generalize c.pulses = l at hps s1 hrd
      induction s1 generalizing l' with
      | nil => cases hps; exact ⟨[], .nil, rfl, rfl⟩
      | @cons p r _ _ h1 h2 ih =>
        cases hps with
        | @cons _ p' _ l' e hps =>
          obtain ⟨ps', i1, i2, i3⟩ := ih l' (fun q hq => hgp q (by simp [hq])) hps (fun q hq => hrd q (by simp [hq]))
          obtain ⟨v, t, a1, a2, a3⟩ := h1
          obtain ⟨v', b1, e⟩ := py_bind_ok.1 e
          obtain ⟨t', b2, e⟩ := py_bind_ok.1 e
          rw [a1] at b1; cases b1
          rw [a2] at b2; cases b2
          obtain ⟨d, hd, hr⟩ := hrd p (by simp)
          have key := pulse_base hr (hS.shaping d hd) (hS.accumulate d hd) (hS.zero d hd)
            ((hr.base_length (hS.accumulate d hd)).trans hr.fields.2.2.2.2.1.symm) (q := r.1) (u := r.2) a3 e
          obtain ⟨n1, n2⟩ := hslot e
          refine ⟨_ :: ps', .cons ⟨_, t, hgp p' (by simp), by rw [n1]; exact a2, key⟩ i1, by simp [i2], ?_⟩
          have : r.1.timeGrid = linspace0 t.getTime p.binsNumber := by
            unfold Pulse.getPulse at a3
            obtain ⟨u, _, a3⟩ := py_bind_ok.1 a3
            rw [py_pure_ok] at a3
            subst a3
            rfl
          simp [i3, this, Pulse.setInputs, n2]
    have B : ∃ ps' : List (Param K × K), List.Forall₂ (fun p r => ∃ v,
        gather (zeros (pd.map (·.declared)).sum ++ c'.params.map (·.value)) p.ctrlList = .ok v ∧
        p.getParameter v = .ok r) c'.params ps' ∧ ps'.map (·.2) = prs.map (·.2) := by
      generalize zeros (pd.map (·.declared)).sum ++ c'.params.map (·.value) = y at hgq ⊢
      generalize c'.params = l' at hqs hgq hlim
      generalize c.params = l at hqs s2
      induction s2 generalizing l' with
      | nil => cases hqs; exact ⟨[], .nil, rfl⟩
      | @cons p r _ _ h1 h2 ih =>
        cases hqs with
        | @cons _ p' _ l' e hqs =>
          obtain ⟨ps', i1, i2⟩ := ih l' (fun q hq => hgq q (by simp [hq])) (fun q hq => hlim q (by simp [hq])) hqs
          obtain ⟨v, a1, a3⟩ := h1
          obtain ⟨v', b1, e⟩ := py_bind_ok.1 e
          rw [a1] at b1; cases b1
          unfold Param.getParameter at a3
          obtain ⟨p1, hp1, a3⟩ := py_bind_ok.1 a3
          rw [hp1] at e; cases e
          rw [py_pure_ok] at a3; subst a3
          have hl := hlim p' (by simp)
          refine ⟨(p', p'.value) :: ps', .cons ⟨_, hgq p' (by simp), ?_⟩ i1, by simp [i2]⟩
          have hval : p'.checkLimits p'.value = p'.value := by
            unfold Param.setParameter at hp1
            obtain ⟨a, _, hp1⟩ := py_bind_ok.1 hp1
            rw [py_pure_ok] at hp1
            subst hp1
            exact Param.checkLimits_idem (p := p) hl a
          unfold Param.getParameter Param.setParameter
          refine py_bind_ok.2 ⟨p', py_bind_ok.2 ⟨p'.value, rfl, ?_⟩, rfl⟩
          rw [hval]
          rfl
    obtain ⟨ps', a1, a2, a3⟩ := A
    obtain ⟨qs', b1, b2⟩ := B
    exact ⟨ps', qs', a1, b1, by rw [a2, a3, b2]⟩
  · exact basis_standard hS.zero hS.times

end
end QuOCS

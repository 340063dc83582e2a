import Verif.Model.FileExchange
import Verif.Lemmas.Prog
import Mathlib.Tactic.Linarith
import Mathlib.Tactic.Ring
import Mathlib.Data.List.Induction

/-!
# Lemmas on the exchange of files with an external program
-/

set_option linter.unusedSectionVars false
set_option linter.unusedVariables false

namespace QuOCS.FX

variable {C F : Type}

/-- The effect of an event on the content of `FoM.txt`. -/
def stepEv (f : Option String) : FileEv C → Option String
  | .wrote t => some t
  | .removed => none
  | .deleted => none
  | _ => f

/-- The content of `FoM.txt` after some events. -/
def content (f : Option String) (d : List (FileEv C)) : Option String := d.foldl stepEv f

theorem content_append (f : Option String) (d e : List (FileEv C)) : content f (d ++ e) = content (content f d) e := by
  simp [content]

/-- The value in the file comes from the last write. -/
theorem content_some {d : List (FileEv C)} {t : String} (h : content none d = some t) :
    ∃ a b, d = a ++ .wrote t :: b ∧ ∀ u, (FileEv.wrote u : FileEv C) ∉ b := by
  induction d using List.reverseRecOn with
  | nil => simp [content] at h
  | append_singleton d e ih =>
    rw [content_append] at h
    cases e with
    | wrote u =>
      simp only [content, List.foldl_cons, List.foldl_nil, stepEv, Option.some.injEq] at h
      subst h
      exact ⟨d, [], rfl, by simp⟩
    | removed => simp [content, stepEv] at h
    | deleted => simp [content, stepEv] at h
    | looked x =>
      obtain ⟨a, b, rfl, hb⟩ := ih h
      exact ⟨a, b ++ [.looked x], by simp, by simp [hb]⟩
    | published x =>
      obtain ⟨a, b, rfl, hb⟩ := ih h
      exact ⟨a, b ++ [.published x], by simp, by simp [hb]⟩
    | read x =>
      obtain ⟨a, b, rfl, hb⟩ := ih h
      exact ⟨a, b ++ [.read x], by simp, by simp [hb]⟩

/-- Events other than publications and readings. -/
def Minor (e : FileEv C) : Prop := match e with
  | .published _ => False
  | .read _ => False
  | _ => True

/-- `s'` arises from `s` by the events `d`. -/
def By (s s' : Exch C) (d : List (FileEv C)) : Prop := s'.events = s.events ++ d ∧ s'.fom = content s.fom d

theorem By.refl (s : Exch C) : By s s [] := ⟨by simp, rfl⟩

theorem By.trans {s s' s'' : Exch C} {d e : List (FileEv C)} (h : By s s' d) (h' : By s' s'' e) : By s s'' (d ++ e) :=
  ⟨by rw [h'.1, h.1, List.append_assoc], by rw [h'.2, h.2, content_append]⟩

theorem apply_by (s : Exch C) (a : ExtAct) : ∃ e, By s (s.apply a) [e] ∧ Minor e := by
  cases a with
  | write t => exact ⟨.wrote t, ⟨rfl, rfl⟩, trivial⟩
  | delete => exact ⟨.deleted, ⟨rfl, rfl⟩, trivial⟩

theorem foldl_by (as : List ExtAct) (s : Exch C) :
    ∃ d, By s (as.foldl Exch.apply s) d ∧ (∀ e ∈ d, Minor e) ∧ (as.foldl Exch.apply s).slept = s.slept := by
  induction as generalizing s with
  | nil => exact ⟨[], By.refl s, by simp, rfl⟩
  | cons a as ih =>
    obtain ⟨e, h1, h2⟩ := apply_by s a
    obtain ⟨d, h3, h4, h5⟩ := ih (s.apply a)
    refine ⟨[e] ++ d, h1.trans h3, ?_, ?_⟩
    · intro x hx
      rw [List.mem_append, List.mem_singleton] at hx
      rcases hx with rfl | hx
      · exact h2
      · exact h4 x hx
    · rw [List.foldl_cons, h5]; cases a <;> rfl

variable (ext : Ext C)

/-- The state after the external program acted. -/
def after (s : Exch C) : Exch C := (ext s.events).foldl Exch.apply s

theorem after_by (s : Exch C) : ∃ d, By s (after ext s) d ∧ (∀ e ∈ d, Minor e) ∧ (after ext s).slept = s.slept :=
  foldl_by _ s

theorem existsFoM_eq (s : Exch C) : existsFoM ext s = (.ok (after ext s).fom.isSome,
    { after ext s with events := (after ext s).events ++ [.looked (after ext s).fom.isSome] }) := rfl

theorem existsFoM_by (s : Exch C) : ∃ s' d b, existsFoM ext s = (.ok b, s') ∧ By s s' (d ++ [.looked b]) ∧
    (∀ e ∈ d, Minor e) ∧ b = s'.fom.isSome ∧ s'.slept = s.slept := by
  obtain ⟨d, h1, h2, h3⟩ := after_by ext s
  exact ⟨_, d, _, existsFoM_eq ext s, h1.trans ⟨rfl, rfl⟩, h2, rfl, h3⟩

theorem removeFoM_eq (s : Exch C) : removeFoM ext s = match (after ext s).fom with
    | none => (.error .osError, after ext s)
    | some _ => (.ok (), { after ext s with fom := none, events := (after ext s).events ++ [.removed] }) := rfl

/-- After `removeOld` there is no file, and the last event says so. -/
theorem removeOld_by (s : Exch C) : ∃ s' d, By s s' d ∧ (∀ e ∈ d, Minor e) ∧ s'.slept = s.slept ∧
    ((removeOld ext s = (.ok (), s') ∧ s'.fom = none ∧ ∃ d' x, d = d' ++ [x] ∧ (x = .looked false ∨ x = .removed)) ∨
      removeOld ext s = (.error .osError, s')) := by
  obtain ⟨s₁, d₁, b, h1, h2, h3, h4, h5⟩ := existsFoM_by ext s
  have hm : ∀ e ∈ d₁ ++ [FileEv.looked b], Minor e := by
    intro e he
    rw [List.mem_append, List.mem_singleton] at he
    rcases he with he | rfl
    · exact h3 e he
    · trivial
  unfold removeOld
  rw [Prog.bind_ok h1]
  cases b with
  | false =>
    refine ⟨s₁, _, h2, hm, h5, Or.inl ⟨rfl, ?_, d₁, _, rfl, Or.inl rfl⟩⟩
    cases hf : s₁.fom with
    | none => rfl
    | some t => rw [hf] at h4; simp at h4
  | true =>
    obtain ⟨d₂, g1, g2, g3⟩ := after_by ext s₁
    show ∃ s' d, By s s' d ∧ _ ∧ _ ∧ ((removeFoM ext s₁ = (.ok (), s') ∧ _) ∨ removeFoM ext s₁ = (.error .osError, s'))
    rw [removeFoM_eq]
    have hm2 : ∀ e ∈ (d₁ ++ [FileEv.looked true]) ++ d₂, Minor e := by
      intro e he
      rw [List.mem_append] at he
      rcases he with he | he
      · exact hm e he
      · exact g2 e he
    cases hf : (after ext s₁).fom with
    | none => exact ⟨_, _, h2.trans g1, hm2, by rw [g3, h5], Or.inr rfl⟩
    | some t =>
      refine ⟨_, (d₁ ++ [.looked true]) ++ d₂ ++ [.removed], (h2.trans g1).trans ⟨rfl, rfl⟩, ?_, by rw [← h5, ← g3],
        Or.inl ⟨rfl, rfl, _, _, rfl, Or.inr rfl⟩⟩
      intro e he
      rw [List.mem_append, List.mem_singleton] at he
      rcases he with he | rfl
      · exact hm2 e he
      · trivial

/-- The publication of the controls, if it happens. -/
def pub (cfg : ExchCfg F) (c : C) : List (FileEv C) := if cfg.known && cfg.writable then [.published c] else []

theorem putControls_by (cfg : ExchCfg F) (s : Exch C) (c : C) : ∃ s' d, putControls cfg ext c s = (.ok (), s') ∧
    By s s' (d ++ pub cfg c) ∧ (∀ e ∈ d, Minor e) ∧ s'.slept = s.slept := by
  obtain ⟨d, h1, h2, h3⟩ := after_by ext s
  have heq : putControls cfg ext c s = (.ok (), if cfg.known && cfg.writable then
      { after ext s with events := (after ext s).events ++ [.published c] } else after ext s) := rfl
  refine ⟨_, d, heq, ?_, h2, ?_⟩
  · unfold pub
    split
    · exact h1.trans ⟨rfl, rfl⟩
    · exact h1.trans (By.refl _)
  · split
    · exact h3
    · exact h3

/-- The largest number of times QuOCS looks for the file. -/
def polls (maxTime : ℚ) : ℕ := max 1 ⌈maxTime⌉₊

theorem waitLoop_by (cfg : ExchCfg F) : ∀ (fuel counter : ℕ) (s : Exch C), counter < polls cfg.maxTime →
    polls cfg.maxTime < fuel + counter + 1 →
    ∃ s' d b n, waitLoop cfg ext fuel counter s = (.ok b, s') ∧ By s s' d ∧ (∀ e ∈ d, Minor e) ∧
      counter + n ≤ polls cfg.maxTime ∧ s'.slept = s.slept + n / 2 ∧
      (b = true → s'.fom.isSome = true) ∧ (b = false → s'.fom = none ∧ counter + n = polls cfg.maxTime) := by
  intro fuel
  induction fuel with
  | zero => intro counter s h1 h2; omega
  | succ fuel ih =>
    intro counter s h1 h2
    obtain ⟨s₁, d₁, b, g1, g2, g3, g4, g5⟩ := existsFoM_by ext s
    have hm : ∀ e ∈ d₁ ++ [FileEv.looked b], Minor e := by
      intro e he
      rw [List.mem_append, List.mem_singleton] at he
      rcases he with he | rfl
      · exact g3 e he
      · trivial
    rw [waitLoop, Prog.bind_ok g1]
    cases b with
    | true => exact ⟨s₁, _, true, 0, rfl, g2, hm, by omega, by rw [g5]; simp, fun _ => g4.symm, fun h => by simp at h⟩
    | false =>
      have hnone : s₁.fom = none := by
        cases hf : s₁.fom with
        | none => rfl
        | some t => rw [hf] at g4; simp at g4
      let s₂ : Exch C := { s₁ with slept := s₁.slept + 1 / 2 }
      have hs2 : By s₁ s₂ [] := ⟨by simp [s₂], rfl⟩
      show ∃ s' d b n, (if cfg.maxTime ≤ ((counter + 1 : ℕ) : ℚ) then (pure false : Prog (Exch C) Bool)
        else waitLoop cfg ext fuel (counter + 1)) s₂ = (.ok b, s') ∧ _
      by_cases hc : cfg.maxTime ≤ ((counter + 1 : ℕ) : ℚ)
      · rw [if_pos hc]
        have hle : polls cfg.maxTime ≤ counter + 1 := by
          unfold polls
          exact max_le (by omega) (Nat.ceil_le.2 hc)
        have := g2.trans hs2
        rw [List.append_nil] at this
        exact ⟨s₂, _, false, 1, rfl, this, hm, by omega, by show s₁.slept + 1 / 2 = _; rw [g5]; simp,
          fun h => by simp at h, fun _ => ⟨hnone, by omega⟩⟩
      · rw [if_neg hc]
        have hlt : counter + 1 < polls cfg.maxTime := by
          unfold polls
          exact lt_max_of_lt_right (Nat.lt_ceil.2 (not_le.1 hc))
        obtain ⟨s', d, b, n, w1, w2, w3, w4, w5, w6, w7⟩ := ih (counter + 1) s₂ hlt (by omega)
        have := (g2.trans hs2).trans w2
        rw [List.append_nil] at this
        refine ⟨s', _, b, n + 1, w1, this, ?_, by omega, ?_, w6, fun h => ⟨(w7 h).1, by have := (w7 h).2; omega⟩⟩
        · intro e he
          rw [List.mem_append] at he
          rcases he with he | he
          · exact hm e he
          · exact w3 e he
        · rw [w5]
          show s₁.slept + 1 / 2 + (n : ℚ) / 2 = _
          rw [g5]; push_cast; ring

/-- the three ways in which reading ends -/
theorem readFoM_by (cfg : ExchCfg F) (s : Exch C) : ∃ s' d a, readFoM cfg ext s = (.ok a, s') ∧ By s s' d ∧
    s'.slept = s.slept + 1 / 100 ∧
    ((a = ⟨none, none, some (-3)⟩) ∨
      ∃ t v d', cfg.parse t = some v ∧ a = ⟨some v, none, none⟩ ∧ d = d' ++ [.read t] ∧ (∀ e ∈ d', Minor e) ∧
        content s.fom d' = some t) := by
  let s₁ : Exch C := { s with slept := s.slept + 1 / 100 }
  obtain ⟨d, h1, h2, h3⟩ := after_by ext s₁
  have hb : By s (after ext s₁) d := ⟨h1.1, h1.2⟩
  have heq : readFoM cfg ext s = match (after ext s₁).fom with
    | none => (.ok ⟨none, none, some (-3)⟩, after ext s₁)
    | some t => match cfg.parse t with
      | none => (.ok ⟨none, none, some (-3)⟩, { after ext s₁ with events := (after ext s₁).events ++ [.read t] })
      | some v => (.ok ⟨some v, none, none⟩, { after ext s₁ with events := (after ext s₁).events ++ [.read t] }) := rfl
  rw [heq]
  cases hf : (after ext s₁).fom with
  | none => exact ⟨_, d, _, rfl, hb, h3, Or.inl rfl⟩
  | some t =>
    cases hp : cfg.parse t with
    | none =>
      simp only [hp]
      exact ⟨_, d ++ [.read t], _, rfl, hb.trans ⟨rfl, by rw [hf]; rfl⟩, h3, Or.inl rfl⟩
    | some v =>
      simp only [hp]
      exact ⟨_, d ++ [.read t], _, rfl, hb.trans ⟨rfl, by rw [hf]; rfl⟩, h3,
        Or.inr ⟨t, v, d, hp, rfl, rfl, h2, by rw [← hb.2, hf]⟩⟩

/-- One evaluation that yields a value. -/
theorem exchange_value {cfg : ExchCfg F} {fuel : ℕ} {c : C} {s s' : Exch C} {a : Answer F} {v : F}
    (h : exchange cfg ext fuel c s = (.ok a, s')) (hv : a.fom = some v) (hfuel : polls cfg.maxTime < fuel + 1) :
    ∃ d1 x d2 d3 t, s'.events = s.events ++ (d1 ++ [x] ++ d2 ++ pub cfg c ++ d3 ++ [.read t]) ∧
      (x = .looked false ∨ x = .removed) ∧ (∀ e ∈ d1 ++ [x] ++ d2 ++ d3, Minor e) ∧ cfg.parse t = some v ∧
      content none (d2 ++ pub cfg c ++ d3) = some t ∧ s'.fom = some t := by
  obtain ⟨s₁, dr, r1, r2, r3, r4⟩ := removeOld_by ext s
  rcases r4 with ⟨r4, r5, d1, x, rfl, r6⟩ | r4
  · obtain ⟨s₂, d2, p1, p2, p3, p4⟩ := putControls_by ext cfg s₁ c
    obtain ⟨s₃, dw, b, n, w1, w2, w3, w4, w5, w6, w7⟩ := waitLoop_by ext cfg fuel 0 s₂
      (by unfold polls; exact lt_of_lt_of_le Nat.zero_lt_one (le_max_left _ _)) (by omega)
    have hex : exchange cfg ext fuel c s = (if b then readFoM cfg ext else pure ⟨none, none, some (-2)⟩) s₃ := by
      unfold exchange
      rw [Prog.bind_ok r4, Prog.bind_ok p1]
      unfold readValues
      rw [Prog.bind_ok w1]
    rw [hex] at h
    cases b with
    | false =>
      have := congrArg Prod.fst h
      simp only [Bool.false_eq_true, if_false, Prog.pure_apply, Except.ok.injEq] at this
      rw [← this] at hv
      simp at hv
    | true =>
      obtain ⟨s₄, dd, a', e1, e2, e3, e4⟩ := readFoM_by ext cfg s₃
      rw [if_pos rfl, e1] at h
      simp only [Prod.mk.injEq, Except.ok.injEq] at h
      obtain ⟨rfl, rfl⟩ := h
      rcases e4 with rfl | ⟨t, v', d3', f1, rfl, rfl, f4, f5⟩
      · simp at hv
      · simp only [Option.some.injEq] at hv
        subst hv
        refine ⟨d1, x, d2, dw ++ d3', t, ?_, r6, ?_, f1, ?_, ?_⟩
        · rw [((r1.trans p2).trans (w2.trans e2)).1]
          simp
        · intro e he
          simp only [List.mem_append] at he
          rcases he with (he | he) | he | he
          · exact r2 e (List.mem_append.2 he)
          · exact p3 e he
          · exact w3 e he
          · exact f4 e he
        · rw [content_append, content_append, show content none (d2 ++ pub cfg c) = s₂.fom by rw [p2.2, r5],
            ← w2.2, f5]
        · rw [e2.2, content_append, f5]; rfl
  · unfold exchange at h
    rw [Prog.bind_error r4] at h
    simp at h

/-! ### Counting -/

/-- number of writes / publications -/
def writes (d : List (FileEv C)) : ℕ := d.countP (fun e => match e with | .wrote _ => true | _ => false)
def pubs (d : List (FileEv C)) : ℕ := d.countP (fun e => match e with | .published _ => true | _ => false)

theorem writes_append (d e : List (FileEv C)) : writes (d ++ e) = writes d + writes e := List.countP_append
theorem pubs_append (d e : List (FileEv C)) : pubs (d ++ e) = pubs d + pubs e := List.countP_append

theorem pubs_minor {d : List (FileEv C)} (h : ∀ e ∈ d, Minor e) : pubs d = 0 := by
  unfold pubs
  rw [List.countP_eq_zero]
  intro e he
  have := h e he
  cases e <;> simp_all [Minor]

theorem writes_pos {d : List (FileEv C)} {t : String} (h : FileEv.wrote t ∈ d) : 0 < writes d := by
  unfold writes
  rw [List.countP_pos_iff]
  exact ⟨_, h, rfl⟩

theorem mem_of_writes_pos {d : List (FileEv C)} (h : 0 < writes d) : ∃ a t b, d = a ++ FileEv.wrote t :: b ∧ writes a = 0 := by
  induction d with
  | nil => simp [writes] at h
  | cons e d ih =>
    by_cases hw : ∃ t, e = .wrote t
    · obtain ⟨t, rfl⟩ := hw
      exact ⟨[], t, d, rfl, rfl⟩
    · have h0 : writes [e] = 0 := by
        unfold writes
        rw [List.countP_eq_zero]
        intro x hx
        simp only [List.mem_singleton] at hx
        subst hx
        cases x <;> simp_all
      have hd : writes (e :: d) = writes [e] + writes d := by
        rw [← writes_append]; rfl
      obtain ⟨a, t, b, rfl, h2⟩ := ih (by omega)
      exact ⟨e :: a, t, b, rfl, by
        have : writes (e :: a) = writes [e] + writes a := by rw [← writes_append]; rfl
        omega⟩

end QuOCS.FX

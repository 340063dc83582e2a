import Verif.Lemmas.FileExchange
import Verif.Spec.FileExchange

/-!
# C50, C51: evaluation by an external program through files

`polls maxTime` is the number of times QuOCS looks for the file at most, `max 1 ⌈max_time⌉`.
-/

set_option linter.unusedSectionVars false
set_option linter.unusedVariables false

namespace QuOCS

open FX Spec

variable {C F : Type}

theorem FX.numWritten_eq (d : List (FileEv C)) : numWritten d = writes d := by
  rw [numWritten, writes, List.countP_eq_length_filter]; rfl

theorem FX.numPublished_eq (d : List (FileEv C)) : numPublished d = pubs d := by
  rw [numPublished, pubs, List.countP_eq_length_filter]; rfl

/-! ### C50: no stale values -/

/-- Whatever the external program does: a value that an evaluation returns was written by the program during this
evaluation, after the previous file had been removed (or found missing), and it is the last value written. Values from
before the evaluation are never used. Missing for the full property: that it was written after the controls had been
published; see `C50_answers_own_controls` and `C50_late_answer`. -/
theorem C50_written_in_this_evaluation_partial (cfg : ExchCfg F) (ext : Ext C) (fuel : ℕ)
    (hfuel : polls cfg.maxTime ≤ fuel) (c : C) (s s' : Exch C) (a : Answer F) (v : F)
    (h : exchange cfg ext fuel c s = (.ok a, s')) (hv : a.fom = some v) :
    ∃ d1 x d2 t d3, s'.events = s.events ++ (d1 ++ [x] ++ d2 ++ [.wrote t] ++ d3 ++ [.read t]) ∧
      (x = .looked false ∨ x = .removed) ∧ (∀ u, FileEv.wrote u ∉ d3) ∧ cfg.parse t = some v := by
  obtain ⟨d1, x, d2, d3, t, h1, h2, h3, h4, h5, h6⟩ := exchange_value ext h hv (by omega)
  obtain ⟨p, q, hpq, hq⟩ := content_some h5
  refine ⟨d1, x, p, t, q, ?_, h2, hq, h4⟩
  rw [h1]
  have : d1 ++ [x] ++ d2 ++ pub cfg c ++ d3 ++ [FileEv.read t] = d1 ++ [x] ++ (d2 ++ pub cfg c ++ d3) ++ [.read t] := by
    simp
  rw [this, hpq]
  simp

/-- one evaluation, given that the program answers at most once and had answered everything so far -/
theorem FX.exchange_once {cfg : ExchCfg F} {ext : Ext C} {fuel : ℕ} (hfuel : polls cfg.maxTime ≤ fuel) {c : C}
    {s s' : Exch C} {a : Answer F} {v : F} (hc : (cfg.known && cfg.writable) = true)
    (h : exchange cfg ext fuel c s = (.ok a, s')) (hv : a.fom = some v) (hn : writes s.events = pubs s.events)
    (honce : AnswersOnce s'.events) :
    writes s'.events = pubs s'.events ∧ pubs s'.events = pubs s.events + 1 ∧
    ∃ d2 d3 t d4, s'.events = s.events ++ (d2 ++ [.published c] ++ d3 ++ [.wrote t] ++ d4 ++ [.read t]) ∧
      (∀ u, FileEv.wrote u ∉ d2 ++ d3 ++ d4) ∧ (∀ u, FileEv.published u ∉ d2 ++ d3 ++ d4) ∧ cfg.parse t = some v := by
  obtain ⟨d1, x, d2, d3, t, h1, h2, h3, h4, h5, h6⟩ := exchange_value ext h hv (by omega)
  have hpub : pub cfg c = [.published c] := by unfold pub; rw [if_pos hc]
  rw [hpub] at h1 h5
  have hm1 : ∀ e ∈ d1 ++ [x] ++ d2, Minor e := fun e he => h3 e (List.mem_append.2 (Or.inl he))
  have hm3 : ∀ e ∈ d3, Minor e := fun e he => h3 e (List.mem_append.2 (Or.inr he))
  have hw1 : writes (d1 ++ [x] ++ d2) = 0 := by
    by_contra hne
    obtain ⟨p, u, q, hpq, hp⟩ := mem_of_writes_pos (Nat.pos_of_ne_zero hne)
    have := honce (s.events ++ p) u (q ++ [.published c] ++ d3 ++ [.read t]) (by
      rw [h1, hpq]; simp)
    rw [numWritten_eq, numPublished_eq, writes_append, pubs_append, hp, hn] at this
    have hpm : pubs p = 0 := pubs_minor (fun e he => hm1 e (by rw [hpq]; exact List.mem_append.2 (Or.inl he)))
    omega
  have hw2 : writes d2 = 0 := by rw [writes_append] at hw1; omega
  obtain ⟨p, q, hpq, hq⟩ := content_some h5
  -- the write lies in `d3`
  have hsplit : ∃ p', d3 = p' ++ .wrote t :: q := by
    have hin : FileEv.wrote t ∈ d2 ++ [FileEv.published c] ++ d3 := by rw [hpq]; simp
    have hcase : ∃ m, p = d2 ++ [.published c] ++ m ∧ d3 = m ++ .wrote t :: q ∨
        d2 ++ [.published c] = p ++ m ∧ .wrote t :: q = m ++ d3 := by
      rcases List.append_eq_append_iff.1 hpq with ⟨m, e1, e2⟩ | ⟨m, e1, e2⟩
      · exact ⟨m, Or.inl ⟨e1, e2⟩⟩
      · exact ⟨m, Or.inr ⟨e1, e2⟩⟩
    obtain ⟨m, ⟨e1, e2⟩ | ⟨e1, e2⟩⟩ := hcase
    · exact ⟨m, e2⟩
    · cases m with
      | nil => exact ⟨[], by simpa using e2.symm⟩
      | cons y m =>
        exfalso
        simp only [List.cons_append, List.cons.injEq] at e2
        have hy : FileEv.wrote t ∈ d2 ++ [FileEv.published c] := by rw [e1, ← e2.1]; simp
        rw [List.mem_append] at hy
        rcases hy with hy | hy
        · have := writes_pos hy; omega
        · simp at hy
  obtain ⟨p', rfl⟩ := hsplit
  have hpubA : pubs (s.events ++ (d1 ++ [x] ++ d2) ++ [.published c]) = pubs s.events + 1 := by
    rw [pubs_append, pubs_append, pubs_minor hm1]; rfl
  have hwA : writes (s.events ++ (d1 ++ [x] ++ d2) ++ [.published c]) = writes s.events := by
    rw [writes_append, writes_append, hw1]; rfl
  have hp'm : ∀ e ∈ p', Minor e := fun e he => hm3 e (List.mem_append.2 (Or.inl he))
  have hqm : ∀ e ∈ q, Minor e := fun e he => hm3 e (List.mem_append.2 (Or.inr (List.mem_cons_of_mem _ he)))
  have hwp : writes p' = 0 := by
    have := honce (s.events ++ (d1 ++ [x] ++ d2) ++ [.published c] ++ p') t (q ++ [.read t]) (by rw [h1]; simp)
    rw [numWritten_eq, numPublished_eq, writes_append, pubs_append, hwA, hpubA, pubs_minor hp'm, hn] at this
    omega
  have hwq : writes q = 0 := by
    unfold writes
    rw [List.countP_eq_zero]
    intro e he
    cases e <;> simp_all
  have hev : s'.events = (s.events ++ (d1 ++ [x] ++ d2) ++ [.published c]) ++ p' ++ [.wrote t] ++ q ++ [.read t] := by
    rw [h1]; simp
  have hwr : writes [(FileEv.wrote t : FileEv C)] = 1 := rfl
  have hwr' : pubs [(FileEv.wrote t : FileEv C)] = 0 := rfl
  have hrd : writes [(FileEv.read t : FileEv C)] = 0 := rfl
  have hrd' : pubs [(FileEv.read t : FileEv C)] = 0 := rfl
  have hnw : ∀ {l : List (FileEv C)}, writes l = 0 → ∀ u, FileEv.wrote u ∉ l := by
    intro l hl u hu
    have := writes_pos hu
    omega
  refine ⟨?_, ?_, d1 ++ [x] ++ d2, p', t, q, ?_, ?_, ?_, h4⟩
  · rw [hev]
    simp only [writes_append, pubs_append, hwp, hwq, pubs_minor hp'm, pubs_minor hqm, hwr, hwr', hrd, hrd'] at *
    omega
  · rw [hev]
    rw [pubs_append _ [FileEv.read t], pubs_append _ q, pubs_append _ [FileEv.wrote t], pubs_append _ p', hpubA,
      pubs_minor hp'm, pubs_minor hqm, hwr', hrd']
  · rw [h1]; simp
  · exact hnw (by rw [writes_append, writes_append, hw1, hwp, hwq])
  · intro u hu
    have : ∀ e ∈ d1 ++ [x] ++ d2 ++ p' ++ q, Minor e := by
      intro e he
      rw [List.mem_append, List.mem_append] at he
      rcases he with (he | he) | he
      · exact hm1 e he
      · exact hp'm e he
      · exact hqm e he
    exact this _ hu

/-- events only grow -/
theorem FX.exchange_grows {cfg : ExchCfg F} {ext : Ext C} {fuel : ℕ} (hfuel : polls cfg.maxTime ≤ fuel) {c : C}
    {s s' : Exch C} {a : Answer F} (h : exchange cfg ext fuel c s = (.ok a, s')) {v : F} (hv : a.fom = some v) :
    ∃ d, s'.events = s.events ++ d := by
  obtain ⟨d1, x, d2, d3, t, h1, -⟩ := exchange_value ext h hv (by omega)
  exact ⟨_, h1⟩

theorem FX.AnswersOnce.prefix {d e : List (FileEv C)} (h : AnswersOnce (d ++ e)) : AnswersOnce d := by
  intro p t q hpq
  exact h p t (q ++ e) (by rw [hpq]; simp)

theorem FX.exchanges_once {cfg : ExchCfg F} {ext : Ext C} {fuel : ℕ} (hfuel : polls cfg.maxTime ≤ fuel)
    (hc : (cfg.known && cfg.writable) = true) (cs : List C) {s s' : Exch C} {vs : List F}
    (h : exchanges cfg ext fuel cs s = (.ok vs, s')) :
    (∃ d, s'.events = s.events ++ d) ∧ (writes s.events = pubs s.events → AnswersOnce s'.events →
      writes s'.events = pubs s'.events ∧ pubs s'.events = pubs s.events + cs.length) := by
  induction cs generalizing s vs with
  | nil =>
    have := congrArg Prod.snd h
    have h0 : s = s' := this
    subst h0
    exact ⟨⟨[], by simp⟩, fun hn _ => ⟨hn, rfl⟩⟩
  | cons c cs ih =>
    rw [exchanges] at h
    rcases he : exchange cfg ext fuel c s with ⟨r, s₁⟩
    cases r with
    | error e => rw [Prog.bind_error he] at h; simp at h
    | ok a =>
      rw [Prog.bind_ok he] at h
      cases hv : a.fom with
      | none => rw [hv] at h; simp at h
      | some v =>
        rw [hv] at h
        simp only at h
        rcases hr : exchanges cfg ext fuel cs s₁ with ⟨r, s₂⟩
        cases r with
        | error e => rw [Prog.bind_error hr] at h; simp at h
        | ok ws =>
          rw [Prog.bind_ok hr] at h
          have : s₂ = s' := congrArg Prod.snd h
          subst this
          obtain ⟨⟨d, hd⟩, hi⟩ := ih hr
          obtain ⟨d0, hd0⟩ := exchange_grows hfuel he hv
          refine ⟨⟨d0 ++ d, by rw [hd, hd0]; simp⟩, fun hn honce => ?_⟩
          obtain ⟨g1, g2, -⟩ := exchange_once hfuel hc he hv hn (by rw [hd] at honce; exact FX.AnswersOnce.prefix honce)
          obtain ⟨k1, k2⟩ := hi g1 honce
          exact ⟨k1, by rw [k2, g2, List.length_cons]; omega⟩

/-- If the external program answers every controls file at most once (and never unasked), each evaluation of a run gets
the answer to its own controls: the value was written after the controls of this evaluation were published, no other
controls were published and nothing else was written in between. Any file that was there before the run is ignored. -/
theorem C50_answers_own_controls (cfg : ExchCfg F) (ext : Ext C) (fuel : ℕ) (hfuel : polls cfg.maxTime ≤ fuel)
    (hc : cfg.known = true ∧ cfg.writable = true) (old : Option String) (cs : List C) (c : C) (vs : List F)
    (s s' : Exch C) (a : Answer F) (v : F)
    (hrun : exchanges cfg ext fuel cs ⟨old, [], 0⟩ = (.ok vs, s))
    (h : exchange cfg ext fuel c s = (.ok a, s')) (hv : a.fom = some v) (honce : AnswersOnce s'.events) :
    ∃ d1 d2 t d3, s'.events = s.events ++ (d1 ++ [.published c] ++ d2 ++ [.wrote t] ++ d3 ++ [.read t]) ∧
      (∀ u, FileEv.wrote u ∉ d1 ++ d2 ++ d3) ∧ (∀ u, FileEv.published u ∉ d1 ++ d2 ++ d3) ∧
      cfg.parse t = some v := by
  have hc' : (cfg.known && cfg.writable) = true := by rw [hc.1, hc.2]; rfl
  obtain ⟨d, hd⟩ := exchange_grows hfuel h hv
  obtain ⟨g1, -⟩ := (exchanges_once hfuel hc' cs hrun).2 rfl (by rw [hd] at honce; exact FX.AnswersOnce.prefix honce)
  obtain ⟨-, -, h3⟩ := exchange_once hfuel hc' h hv g1 honce
  exact h3

/-- An external program that answers every published text with a copy of it. -/
def FX.echo : Ext String := fun es => match es.getLast? with
  | some (.published c) => [.write c]
  | _ => []

/-- Settings of the examples: 60 s, json; values are not interpreted. -/
def FX.cfg0 : ExchCfg String := ⟨60, true, true, some⟩

/-- The hypotheses are met: the program answers two evaluations, an old file is ignored. -/
example : (exchanges cfg0 echo 60 ["3", "5"] ⟨some "99", [], 0⟩).1.toOption = some ["3", "5"] := by decide +kernel

def FX.chk1 (pre : List (FileEv C)) : FileEv C → Bool
  | .wrote _ => decide (numWritten pre < numPublished pre)
  | _ => true

/-- a check of `AnswersOnce` -/
def FX.chk (pre : List (FileEv C)) : List (FileEv C) → Bool
  | [] => true
  | e :: es => chk1 pre e && chk (pre ++ [e]) es

theorem FX.chk_sound (es pre : List (FileEv C)) (h : chk pre es = true) (before : List (FileEv C)) (t : String)
    (later : List (FileEv C)) (he : es = before ++ .wrote t :: later) :
    numWritten (pre ++ before) < numPublished (pre ++ before) := by
  induction es generalizing pre before with
  | nil => simp at he
  | cons e es ih =>
    rw [chk, Bool.and_eq_true] at h
    cases before with
    | nil =>
      simp only [List.nil_append, List.cons.injEq] at he
      obtain ⟨rfl, rfl⟩ := he
      simpa [chk1] using h.1
    | cons b before =>
      simp only [List.cons_append, List.cons.injEq] at he
      obtain ⟨rfl, he⟩ := he
      have := ih (pre ++ [e]) h.2 before he
      simpa using this

example : AnswersOnce (exchanges cfg0 echo 60 ["3", "5"] ⟨some "99", [], 0⟩).2.events :=
  fun before t later h => FX.chk_sound _ [] (by decide +kernel) before t later h

/-- A program that is late by one answer: it writes its answer to `1` once more when the file was removed. -/
def FX.late : Ext String := fun es => match es.getLast? with
  | some (.published "1") => [.write "1"]
  | some .removed => [.write "1"]
  | _ => []

/-- Without this restriction on the external program the property fails: if the program writes between the removal of
the old file and the publication, the value is taken for the answer to the new controls. Here the controls `2` get the
value of the controls `1`, and nothing was written after they had been published. -/
theorem C50_late_answer :
    (exchanges cfg0 late 60 ["1", "2"] ⟨none, [], 0⟩).1.toOption = some ["1", "1"] ∧
    (exchanges cfg0 late 60 ["1", "2"] ⟨none, [], 0⟩).2.events =
      [.looked false, .published "1", .wrote "1", .looked true, .read "1",
        .looked true, .removed, .wrote "1", .published "2", .looked true, .read "1"] := by
  decide +kernel

/-- If the file extension is neither `txt` nor `json`, or the json file cannot be written, no controls are ever
published, and evaluations go on: every value that comes back has nothing to do with the controls. -/
theorem C50_nothing_published (cfg : ExchCfg F) (ext : Ext C) (fuel : ℕ) (hfuel : polls cfg.maxTime ≤ fuel)
    (hc : cfg.known = false ∨ cfg.writable = false) (c : C) (s s' : Exch C) (a : Answer F) (v : F)
    (h : exchange cfg ext fuel c s = (.ok a, s')) (hv : a.fom = some v) :
    numPublished s'.events = numPublished s.events := by
  obtain ⟨d1, x, d2, d3, t, h1, h2, h3, h4, h5, h6⟩ := exchange_value ext h hv (by omega)
  have hpub : pub cfg c = [] := by
    unfold pub
    rcases hc with hc | hc <;> simp [hc]
  rw [numPublished_eq, numPublished_eq, h1, pubs_append, hpub, List.append_nil]
  have : pubs (d1 ++ [x] ++ d2 ++ d3) = 0 := pubs_minor h3
  rw [pubs_append _ [FileEv.read t], this]
  rfl

/-- This happens: with the extension `npz` a program that writes `5` now and then is believed. -/
example : (exchanges ⟨60, false, true, some⟩ (fun es => if es.length = 1 then [.write "5"] else [])
    60 ["3"] (⟨none, [], 0⟩ : Exch String)).1.toOption = some ["5"] := by decide +kernel

/-! ### C51: waiting and failing -/

/-- Every evaluation ends, whatever the external program does, after at most `max 1 ⌈max_time⌉ / 2 + 1/100` seconds of
waiting. It ends with a value, or with status code -2 (no file) or -3 (not readable), or with `FileNotFoundError`. -/
theorem C51_bounded_wait (cfg : ExchCfg F) (ext : Ext C) (fuel : ℕ) (hfuel : max 1 ⌈cfg.maxTime⌉₊ ≤ fuel) (c : C)
    (s : Exch C) : ∃ r s', exchange cfg ext fuel c s = (r, s') ∧
      s'.slept ≤ s.slept + (max 1 ⌈cfg.maxTime⌉₊ : ℕ) / 2 + 1 / 100 ∧
      (r = .error .osError ∨ r = .ok ⟨none, none, some (-2)⟩ ∨ r = .ok ⟨none, none, some (-3)⟩ ∨
        ∃ v, r = .ok ⟨some v, none, none⟩) := by
  have hpos : (0 : ℚ) ≤ (max 1 ⌈cfg.maxTime⌉₊ : ℕ) / 2 := by positivity
  obtain ⟨s₁, dr, r1, r2, r3, r4⟩ := removeOld_by ext s
  rcases r4 with ⟨r4, r5, -⟩ | r4
  · obtain ⟨s₂, d2, p1, p2, p3, p4⟩ := putControls_by ext cfg s₁ c
    obtain ⟨s₃, dw, b, n, w1, w2, w3, w4, w5, w6, w7⟩ := waitLoop_by ext cfg fuel 0 s₂
      (by unfold polls; exact lt_of_lt_of_le Nat.zero_lt_one (le_max_left _ _)) (by unfold polls; omega)
    have hex : exchange cfg ext fuel c s = (if b then readFoM cfg ext else pure ⟨none, none, some (-2)⟩) s₃ := by
      unfold exchange
      rw [Prog.bind_ok r4, Prog.bind_ok p1]
      unfold readValues
      rw [Prog.bind_ok w1]
    have hn : (n : ℚ) ≤ (max 1 ⌈cfg.maxTime⌉₊ : ℕ) := by
      have : n ≤ max 1 ⌈cfg.maxTime⌉₊ := by unfold polls at w4; omega
      exact_mod_cast this
    rw [hex]
    cases b with
    | false =>
      refine ⟨_, s₃, rfl, ?_, Or.inr (Or.inl rfl)⟩
      rw [w5, p4, r3]
      linarith
    | true =>
      obtain ⟨s₄, dd, a', e1, e2, e3, e4⟩ := readFoM_by ext cfg s₃
      refine ⟨_, s₄, e1, ?_, ?_⟩
      · rw [e3, w5, p4, r3]
        linarith
      · rcases e4 with rfl | ⟨t, v, d', f1, rfl, -⟩
        · exact Or.inr (Or.inr (Or.inl rfl))
        · exact Or.inr (Or.inr (Or.inr ⟨v, rfl⟩))
  · refine ⟨_, s₁, ?_, ?_, Or.inl rfl⟩
    · unfold exchange
      exact Prog.bind_error r4
    · rw [r3]
      linarith

/-- An exception can only come from the removal of the old file, when the external program deletes it at the same
moment: without a file at the beginning of the evaluation and with a program that never deletes, the evaluation always
returns. (Without the hypotheses: `C51_bounded_wait`, `C51_removal_race`.) -/
theorem C51_returns_partial (cfg : ExchCfg F) (ext : Ext C) (fuel : ℕ) (hfuel : max 1 ⌈cfg.maxTime⌉₊ ≤ fuel) (c : C)
    (s : Exch C) (hdel : ∀ es, ExtAct.delete ∉ ext es) : ∃ a s', exchange cfg ext fuel c s = (.ok a, s') := by
  have hkeep : ∀ (as : List ExtAct), ExtAct.delete ∉ as → ∀ s : Exch C, s.fom.isSome = true →
      (as.foldl Exch.apply s).fom.isSome = true := by
    intro as
    induction as with
    | nil => intro _ s hs; exact hs
    | cons a as ih =>
      intro ha s hs
      rw [List.mem_cons, not_or] at ha
      refine ih ha.2 _ ?_
      cases a with
      | write t => rfl
      | delete => exact absurd rfl ha.1
  obtain ⟨r, s', h1, -, h2⟩ := C51_bounded_wait cfg ext fuel hfuel c s
  rcases h2 with rfl | rfl | rfl | ⟨v, rfl⟩
  · exfalso
    have hne : ∀ s', removeOld ext s ≠ (.error .osError, s') := by
      intro s'' hr
      obtain ⟨s₁, d₁, b, g1, g2, g3, g4, g5⟩ := existsFoM_by ext s
      unfold removeOld at hr
      rw [Prog.bind_ok g1] at hr
      cases b with
      | false => simp at hr
      | true =>
        simp only [if_true] at hr
        rw [removeFoM_eq] at hr
        have := hkeep (ext s₁.events) (hdel _) s₁ g4.symm
        have : (after ext s₁).fom.isSome = true := this
        cases hf : (after ext s₁).fom with
        | none => rw [hf] at this; simp at this
        | some t => rw [hf] at hr; simp at hr
    obtain ⟨s₁, dr, r1, r2, r3, r4⟩ := removeOld_by ext s
    rcases r4 with ⟨r4, r5, -⟩ | r4
    · obtain ⟨s₂, d2, p1, p2, p3, p4⟩ := putControls_by ext cfg s₁ c
      obtain ⟨s₃, dw, b, n, w1, w2, w3, w4, w5, w6, w7⟩ := waitLoop_by ext cfg fuel 0 s₂
        (by unfold polls; exact lt_of_lt_of_le Nat.zero_lt_one (le_max_left _ _)) (by unfold polls; omega)
      have hex : exchange cfg ext fuel c s = (if b then readFoM cfg ext else pure ⟨none, none, some (-2)⟩) s₃ := by
        unfold exchange
        rw [Prog.bind_ok r4, Prog.bind_ok p1]
        unfold readValues
        rw [Prog.bind_ok w1]
      rw [hex] at h1
      cases b with
      | false => simp at h1
      | true =>
        obtain ⟨s₄, dd, a', e1, e2, e3, e4⟩ := readFoM_by ext cfg s₃
        rw [if_pos rfl, e1] at h1
        simp at h1
    · exact hne _ r4
  · exact ⟨_, _, h1⟩
  · exact ⟨_, _, h1⟩
  · exact ⟨_, _, h1⟩

/-- A program that deletes the file just when QuOCS wants to remove it makes the evaluation fail with an exception. -/
theorem C51_removal_race :
    (match (exchange cfg0 (fun es => if es = [.looked true] then [.delete] else []) 60 "1"
        (⟨some "3", [], 0⟩ : Exch String)).1 with
      | .error .osError => true | _ => false) = true := by decide +kernel

theorem FX.Silent.after {ext : Ext C} (h : Silent ext) {s : Exch C} (hs : s.fom = none) : (after ext s).fom = none := by
  have : ∀ (as : List ExtAct), (∀ t, ExtAct.write t ∉ as) → ∀ s : Exch C, s.fom = none →
      (as.foldl Exch.apply s).fom = none := by
    intro as
    induction as with
    | nil => intro _ s hs; exact hs
    | cons a as ih =>
      intro ha s hs
      refine ih (fun t ht => ha t (List.mem_cons_of_mem _ ht)) _ ?_
      cases a with
      | write t => exact absurd List.mem_cons_self (ha t)
      | delete => rfl
  exact this _ (h _) s hs

/-- If the external program never answers and there is no old file, the evaluation ends with status code -2 after
exactly `max 1 ⌈max_time⌉` half seconds. -/
theorem C51_silent_program (cfg : ExchCfg F) (ext : Ext C) (hsilent : Silent ext) (fuel : ℕ)
    (hfuel : max 1 ⌈cfg.maxTime⌉₊ ≤ fuel) (c : C) (s : Exch C) (hs : s.fom = none) :
    ∃ s', exchange cfg ext fuel c s = (.ok ⟨none, none, some (-2)⟩, s') ∧
      s'.slept = s.slept + (max 1 ⌈cfg.maxTime⌉₊ : ℕ) / 2 := by
  obtain ⟨s₁, dr, r1, r2, r3, r4⟩ := removeOld_by ext s
  have hr : removeOld ext s = (.ok (), s₁) := by
    rcases r4 with ⟨r4, -⟩ | r4
    · exact r4
    · exfalso
      unfold removeOld at r4
      rw [Prog.bind_ok (existsFoM_eq ext s), FX.Silent.after hsilent hs] at r4
      simp at r4
  have hs1 : s₁.fom = none := by
    rcases r4 with ⟨-, r5, -⟩ | r4
    · exact r5
    · rw [hr] at r4; simp at r4
  obtain ⟨s₂, d2, p1, p2, p3, p4⟩ := putControls_by ext cfg s₁ c
  have hs2 : s₂.fom = none := by
    have : s₂ = if cfg.known && cfg.writable then
      { after ext s₁ with events := (after ext s₁).events ++ [.published c] } else after ext s₁ :=
      (congrArg Prod.snd p1).symm
    rw [this]
    split <;> exact FX.Silent.after hsilent hs1
  have hwait : ∀ fuel counter (s : Exch C), s.fom = none → ∀ s' , waitLoop cfg ext fuel counter s ≠ (.ok true, s') := by
    intro fuel
    induction fuel with
    | zero => intro counter s hs s' h; simp [waitLoop] at h
    | succ fuel ih =>
      intro counter s hs s' h
      rw [waitLoop, Prog.bind_ok (existsFoM_eq ext s), FX.Silent.after hsilent hs] at h
      simp only [Option.isSome_none, Bool.false_eq_true, if_false] at h
      change (if cfg.maxTime ≤ ((counter + 1 : ℕ) : ℚ) then (pure false : Prog (Exch C) Bool)
        else waitLoop cfg ext fuel (counter + 1)) _ = _ at h
      split at h
      · simp at h
      · refine ih _ _ ?_ _ h
        exact FX.Silent.after hsilent hs
  obtain ⟨s₃, dw, b, n, w1, w2, w3, w4, w5, w6, w7⟩ := waitLoop_by ext cfg fuel 0 s₂
    (by unfold polls; exact lt_of_lt_of_le Nat.zero_lt_one (le_max_left _ _)) (by unfold polls; omega)
  cases b with
  | true => exact absurd w1 (hwait _ _ _ hs2 _)
  | false =>
    refine ⟨s₃, ?_, ?_⟩
    · unfold exchange
      rw [Prog.bind_ok hr, Prog.bind_ok p1]
      unfold readValues
      rw [Prog.bind_ok w1]
      rfl
    · rw [w5, p4, r3]
      have : n = max 1 ⌈cfg.maxTime⌉₊ := by have := (w7 rfl).2; unfold polls at this; omega
      rw [this]

/-- In particular the waiting time is only half of the configured `max_time`: with the documented 60 s the evaluation is
given up after 30 s. -/
theorem C51_half_the_time (cfg : ExchCfg F) (h60 : cfg.maxTime = 60) (ext : Ext C) (hsilent : Silent ext) (c : C)
    (s : Exch C) (hs : s.fom = none) :
    ∃ s', exchange cfg ext 60 c s = (.ok ⟨none, none, some (-2)⟩, s') ∧ s'.slept = s.slept + 30 := by
  have hp : max 1 ⌈cfg.maxTime⌉₊ = 60 := by
    rw [h60, show ((60 : ℚ)) = ((60 : ℕ) : ℚ) by norm_num, Nat.ceil_natCast]; rfl
  obtain ⟨s', h1, h2⟩ := C51_silent_program cfg ext hsilent 60 (by rw [hp]) c s hs
  refine ⟨s', h1, ?_⟩
  rw [h2, hp]
  norm_num

example : Silent (fun _ => [] : Ext ℕ) ∧ ¬ Silent echo :=
  ⟨fun es t h => by simp at h, fun h => h [.published "1"] "1" (by simp [echo])⟩

/-- The run is not stopped with the status code: the figure of merit of a failed exchange is `None`, its multiplication
by `FoM_factor` raises `TypeError` before the status code is looked at, and the running flag stays set. -/
theorem C51_no_answer_raises {K V O F : Type} [LE K] [DecidableLE K] [Add F] [Sub F] [Mul F] [Div F] [Neg F] [Zero F]
    [One F] [NatCast F] [LE F] [LT F] [DecidableLE F] [DecidableLT F] (cfg : AlgCfg K F) (env : Env V C F) (x : V)
    (c : C) (s : AlgState V C O F) (n : ℤ) (h : env.getFoM s.log c = .ok ⟨none, none, some n⟩) :
    ∃ s', getData cfg env x c s = (.error .typeError, s') ∧ s'.running = s.running := by
  unfold getData
  simp only [h]
  exact ⟨_, rfl, rfl⟩

end QuOCS

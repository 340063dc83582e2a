import Verif.Model.Folder
import Verif.Lemmas.Prog

/-!
# Lemmas on the results folder
-/

set_option linter.unusedSectionVars false
set_option linter.unusedVariables false

namespace QuOCS.Folder

variable {S α β : Type}

/-- Hoare triple with a post-condition for normal results and one for exceptions. -/
def Trip (P : S → Prop) (m : Prog S α) (Q : α → S → Prop) (E : S → Prop) : Prop :=
  ∀ s, P s → (∀ a s', m s = (.ok a, s') → Q a s') ∧ (∀ e s', m s = (.error e, s') → E s')

theorem Trip.bind {P : S → Prop} {m : Prog S α} {f : α → Prog S β} {Q : α → S → Prop} {R : β → S → Prop} {E : S → Prop}
    (h1 : Trip P m Q E) (h2 : ∀ a, Trip (Q a) (f a) R E) : Trip P (m >>= f) R E := by
  intro s hs
  obtain ⟨ho, he⟩ := h1 s hs
  rcases hm : m s with ⟨e | a, s'⟩
  · constructor
    · intro b s'' h; rw [Prog.bind_apply, hm] at h; simp at h
    · intro e' s'' h; rw [Prog.bind_apply, hm] at h
      simp only [Prod.mk.injEq] at h
      rw [← h.2]; exact he e s' hm
  · have hq := ho a s' hm
    have := h2 a s' hq
    constructor
    · intro b s'' h; rw [Prog.bind_apply, hm] at h; exact this.1 b s'' h
    · intro e s'' h; rw [Prog.bind_apply, hm] at h; exact this.2 e s'' h

theorem Trip.pure {P : S → Prop} {a : α} {E : S → Prop} : Trip P (Pure.pure a : Prog S α) (fun b s => b = a ∧ P s) E := by
  intro s hs
  constructor
  · intro b s' h
    have h1 := congrArg Prod.fst h
    have h2 := congrArg Prod.snd h
    exact ⟨by cases h1; rfl, by cases h2; exact hs⟩
  · intro e s' h
    have h1 := congrArg Prod.fst h
    cases h1

theorem Trip.raise {P : S → Prop} {e : PyErr} {Q : α → S → Prop} : Trip P (Prog.raise e : Prog S α) Q P := by
  intro s hs
  constructor
  · intro b s' h
    have h1 := congrArg Prod.fst h
    cases h1
  · intro e s' h
    have h2 := congrArg Prod.snd h
    cases h2; exact hs

theorem Trip.weaken {P P' : S → Prop} {m : Prog S α} {Q Q' : α → S → Prop} {E E' : S → Prop} (h : Trip P m Q E)
    (hp : ∀ s, P' s → P s) (hq : ∀ a s, Q a s → Q' a s) (he : ∀ s, E s → E' s) : Trip P' m Q' E' :=
  fun s hs => ⟨fun a s' h' => hq _ _ ((h s (hp s hs)).1 a s' h'), fun e s' h' => he _ ((h s (hp s hs)).2 e s' h')⟩

/-! ### The calls, for assertions on the trace -/

variable {env : ℕ → FS → FS}

theorem look_trip {f : FS → α} {A : List (FS × FS) → Prop} :
    Trip (fun s => A s.trace) (look env f) (fun _ s => A s.trace) (fun s => A s.trace) := by
  intro s hs
  constructor
  · intro a s' h
    have h2 := congrArg Prod.snd h
    subst h2; exact hs
  · intro e s' h
    have h1 := congrArg Prod.fst h
    cases h1

theorem act_trip {f : FS → Py FS} {A B : List (FS × FS) → Prop}
    (h : ∀ tr b a, A tr → f b = .ok a → B (tr ++ [(b, a)])) :
    Trip (fun s => A s.trace) (act env f) (fun _ s => B s.trace) (fun s => A s.trace) := by
  intro s hs
  have hval : act env f s = match f (env s.tick s.fs) with
      | .error e => (.error e, { s with fs := env s.tick s.fs, tick := s.tick + 1 })
      | .ok fs' => (.ok (), { fs := fs', tick := s.tick + 1, trace := s.trace ++ [(env s.tick s.fs, fs')] }) := rfl
  cases hf : f (env s.tick s.fs) with
  | error e =>
    rw [hf] at hval
    constructor
    · intro a s' h'; rw [hval] at h'; simp at h'
    · intro e' s' h'; rw [hval] at h'
      simp only [Prod.mk.injEq] at h'
      rw [← h'.2]; exact hs
  | ok fs' =>
    rw [hf] at hval
    constructor
    · intro a s' h'; rw [hval] at h'
      simp only [Prod.mk.injEq] at h'
      rw [← h'.2]; exact h _ _ _ hs hf
    · intro e' s' h'; rw [hval] at h'; simp at h'

/-- A step that keeps all files and folders. -/
def Quiet (t : FS × FS) : Prop := t.2.file = t.1.file ∧ ∀ p, t.1.isDir p = true → t.2.isDir p = true

/-- A step that changes only files inside `R`, and keeps all folders. -/
def Inside (R : Path) (t : FS × FS) : Prop :=
  (∀ p, t.2.file p ≠ t.1.file p → R <:+ p ∧ p ≠ R) ∧ ∀ p, t.1.isDir p = true → t.2.isDir p = true

theorem mkdir_quiet {p : Path} {a b : FS} (h : FS.mkdir p b = .ok a) :
    Quiet (b, a) ∧ b.has p = false ∧ a.isDir p = true := by
  unfold FS.mkdir at h
  split at h
  · cases h
  · next h1 =>
    split at h
    · cases h
      refine ⟨⟨rfl, ?_⟩, by simpa using h1, by simp⟩
      intro q hq
      by_cases e : q = p
      · simp [e]
      · simpa [e] using hq
    · cases h

theorem write_inside {R : Path} {x c : String} {a b : FS} (h : FS.write (x :: R) c b = .ok a) : Inside R (b, a) := by
  unfold FS.write at h
  split at h
  · cases h
  · cases h
    refine ⟨?_, fun q hq => hq⟩
    intro q hq
    by_cases e : q = x :: R
    · subst e; exact ⟨List.suffix_cons x R, fun e => by simpa using congrArg List.length e⟩
    · simp [e] at hq

theorem append_inside {R : Path} {x c : String} {a b : FS} (h : FS.append (x :: R) c b = .ok a) : Inside R (b, a) := by
  unfold FS.append at h
  split at h
  · cases h
  · cases h
    refine ⟨?_, fun q hq => hq⟩
    intro q hq
    by_cases e : q = x :: R
    · subst e; exact ⟨List.suffix_cons x R, fun e => by simpa using congrArg List.length e⟩
    · simp [e] at hq

/-- All steps so far are quiet. -/
def AllQuiet (tr : List (FS × FS)) : Prop := ∀ t ∈ tr, Quiet t

/-- Quiet steps, then the creation of `R`, which did not exist, then steps inside `R`. -/
def Created (R : Path) (tr : List (FS × FS)) : Prop :=
  ∃ pre b a post, tr = pre ++ (b, a) :: post ∧ AllQuiet pre ∧ FS.mkdir R b = .ok a ∧ ∀ t ∈ post, Inside R t

theorem allQuiet_snoc {tr : List (FS × FS)} {t : FS × FS} (h : AllQuiet tr) (ht : Quiet t) : AllQuiet (tr ++ [t]) := by
  intro u hu
  rw [List.mem_append, List.mem_singleton] at hu
  rcases hu with h' | rfl
  · exact h u h'
  · exact ht

theorem created_snoc {R : Path} {tr : List (FS × FS)} {t : FS × FS} (h : Created R tr) (ht : Inside R t) :
    Created R (tr ++ [t]) := by
  obtain ⟨pre, b, a, post, rfl, h1, h2, h3⟩ := h
  refine ⟨pre, b, a, post ++ [t], by simp, h1, h2, ?_⟩
  intro u hu
  rw [List.mem_append, List.mem_singleton] at hu
  rcases hu with h' | rfl
  · exact h3 u h'
  · exact ht

theorem ignoreExists_trip {P Q : S → Prop} {m : Prog S Unit} (h : Trip P m (fun _ => Q) Q) :
    Trip P (ignoreExists m) (fun _ => Q) Q := by
  intro s hs
  obtain ⟨h1, h2⟩ := h s hs
  have hq : Q (ignoreExists m s).2 := by
    unfold ignoreExists
    rcases hm : m s with ⟨e | u, s'⟩
    · have := h2 e s' hm
      cases e <;> exact this
    · exact h1 u s' hm
  constructor
  · intro a s' h'; rw [h'] at hq; exact hq
  · intro e s' h'; rw [h'] at hq; exact hq

theorem makedirs_keep {A : List (FS × FS) → Prop}
    (h : ∀ tr b a p, A tr → FS.mkdir p b = .ok a → A (tr ++ [(b, a)])) (p : Path) :
    Trip (fun s => A s.trace) (makedirs env p) (fun _ s => A s.trace) (fun s => A s.trace) := by
  have hl : ∀ p, Trip (fun s => A s.trace) (act env (FS.mkdir p)) (fun _ s => A s.trace) (fun s => A s.trace) := fun p =>
    act_trip (A := A) (B := A) (fun tr b a h1 h2 => h tr b a p h1 h2)
  induction p with
  | nil => exact hl []
  | cons y p ih =>
    unfold makedirs
    refine Trip.bind (look_trip (A := A)) ?_
    intro c
    cases c with
    | true => exact hl (y :: p)
    | false => exact Trip.bind (ignoreExists_trip ih) (fun _ => hl (y :: p))

theorem makedirs_trip (p : Path) :
    Trip (fun s => AllQuiet s.trace) (makedirs env p) (fun _ s => Created p s.trace) (fun s => AllQuiet s.trace) := by
  have hlast : ∀ p, Trip (fun s => AllQuiet s.trace) (act env (FS.mkdir p)) (fun _ s => Created p s.trace)
      (fun s => AllQuiet s.trace) := by
    intro p
    refine act_trip (A := AllQuiet) (B := Created p) ?_
    intro tr b a h1 h2
    exact ⟨tr, b, a, [], rfl, h1, h2, by simp⟩
  have hkeep := fun p => makedirs_keep (env := env) (A := AllQuiet)
    (fun tr b a q h1 h2 => allQuiet_snoc h1 (mkdir_quiet h2).1) p
  cases p with
  | nil => exact hlast []
  | cons x p =>
    unfold makedirs
    refine Trip.bind (look_trip (A := AllQuiet)) ?_
    intro c
    cases c with
    | true => exact hlast (x :: p)
    | false => exact Trip.bind (ignoreExists_trip (hkeep p)) (fun _ => hlast (x :: p))

/-- The results folder of a run. -/
def results (cwd : Path) (dt job : String) : Path := (dt ++ "_" ++ job) :: "QuOCS_Results" :: cwd

theorem startRun_trip (cwd : Path) (dt job version : String) (logfile : Bool) :
    Trip (fun s => AllQuiet s.trace) (startRun env cwd dt job version logfile)
      (fun r s => r.path = results cwd dt job ∧ Created (results cwd dt job) s.trace)
      (fun s => AllQuiet s.trace ∨ Created (results cwd dt job) s.trace) := by
  unfold startRun
  refine Trip.bind (Q := fun _ s => AllQuiet s.trace) ?_ ?_
  · unfold ensureRoot
    refine Trip.bind (Q := fun _ s => AllQuiet s.trace)
      ((look_trip (A := AllQuiet)).weaken (fun _ h => h) (fun _ _ h => h) (fun _ h => Or.inl h)) ?_
    intro c
    cases c with
    | true => exact Trip.pure.weaken (fun _ h => h) (fun _ _ h => h.2) (fun _ h => h)
    | false =>
      exact (makedirs_keep (A := AllQuiet) (fun tr b a q h1 h2 => allQuiet_snoc h1 (mkdir_quiet h2).1) _).weaken
        (fun _ h => h) (fun _ _ h => h) (fun _ h => Or.inl h)
  intro _
  refine Trip.bind (Q := fun _ s => AllQuiet s.trace)
    ((look_trip (A := AllQuiet)).weaken (fun _ h => h) (fun _ _ h => h) (fun _ h => Or.inl h)) ?_
  intro c
  cases c with
  | true =>
    exact Trip.weaken (P := fun s : Proc => AllQuiet s.trace) Trip.raise (fun _ h => h) (fun _ _ h => h)
      (fun _ h => Or.inl h)
  | false =>
    refine Trip.bind (Q := fun _ s => Created (results cwd dt job) s.trace)
      ((makedirs_trip (results cwd dt job)).weaken (fun _ h => h) (fun _ _ h => h) (fun _ h => Or.inl h)) ?_
    intro _
    refine Trip.bind (Q := fun _ s => Created (results cwd dt job) s.trace)
      ((act_trip (A := Created (results cwd dt job)) (B := Created (results cwd dt job))
        (fun tr b a h1 h2 => created_snoc h1 (write_inside h2))).weaken (fun _ h => h) (fun _ _ h => h) (fun _ h => Or.inr h)) ?_
    intro _
    refine Trip.bind (Q := fun _ s => Created (results cwd dt job) s.trace) ?_ ?_
    · cases logfile with
      | true =>
        exact (act_trip (A := Created (results cwd dt job)) (B := Created (results cwd dt job))
          (fun tr b a h1 h2 => created_snoc h1 (append_inside h2))).weaken (fun _ h => h) (fun _ _ h => h)
          (fun _ h => Or.inr h)
      | false => exact Trip.pure.weaken (fun _ h => h) (fun _ _ h => h.2) (fun _ h => h)
    intro _
    exact Trip.weaken (P := fun s : Proc => Created (results cwd dt job) s.trace) Trip.pure (fun _ h => h)
      (fun r _ h => ⟨by rw [h.1]; rfl, h.2⟩) (fun _ h => h)

theorem runWrites_trip (R : Path) (r : RunFolder) (hr : r.path = R) (ws : List RunWrite) :
    Trip (fun s => Created R s.trace) (runWrites env r ws) (fun _ s => Created R s.trace) (fun s => Created R s.trace) := by
  induction ws with
  | nil => exact Trip.pure.weaken (fun _ h => h) (fun _ _ h => h.2) (fun _ h => h)
  | cons w ws ih =>
    subst hr
    cases w with
    | overwrite n c =>
      exact Trip.bind (act_trip (A := Created r.path) (B := Created r.path)
        (fun tr b a h1 h2 => created_snoc h1 (write_inside h2))) (fun _ => ih)
    | append n c =>
      exact Trip.bind (act_trip (A := Created r.path) (B := Created r.path)
        (fun tr b a h1 h2 => created_snoc h1 (append_inside h2))) (fun _ => ih)

theorem wholeRun_trip (cwd : Path) (dt job version : String) (logfile : Bool) (ws : List RunWrite) :
    Trip (fun s => AllQuiet s.trace) (wholeRun env cwd dt job version logfile ws)
      (fun r s => r.path = results cwd dt job ∧ Created (results cwd dt job) s.trace)
      (fun s => AllQuiet s.trace ∨ Created (results cwd dt job) s.trace) := by
  unfold wholeRun
  refine Trip.bind (startRun_trip cwd dt job version logfile) ?_
  intro r
  refine Trip.bind (Q := fun _ s => r.path = results cwd dt job ∧ Created (results cwd dt job) s.trace) ?_ ?_
  · intro s hs
    obtain ⟨h1, h2⟩ := runWrites_trip (env := env) _ r hs.1 ws s hs.2
    exact ⟨fun a s' h => ⟨hs.1, h1 a s' h⟩, fun e s' h => Or.inr (h2 e s' h)⟩
  · intro _
    exact Trip.weaken (P := fun s : Proc => r.path = results cwd dt job ∧ Created (results cwd dt job) s.trace)
      (E := fun _ => False) Trip.pure (fun _ h => h) (fun r' _ h => ⟨by rw [h.1]; exact h.2.1, h.2.2⟩) (fun _ h => h.elim)

/-! ### Without other processes the steps follow one another -/

/-- The trace leads from the first file system to the last one. -/
def Linked : FS → List (FS × FS) → FS → Prop
  | a, [], b => a = b
  | a, t :: ts, b => a = t.1 ∧ Linked t.2 ts b

theorem linked_snoc {a b c : FS} {tr : List (FS × FS)} (h : Linked a tr b) : Linked a (tr ++ [(b, c)]) c := by
  induction tr generalizing a with
  | nil => exact ⟨h, rfl⟩
  | cons t tr ih => exact ⟨h.1, ih h.2⟩

/-- `m` keeps `Linked`. -/
def Keeps (fs0 : FS) (m : Prog Proc α) : Prop :=
  ∀ s, Linked fs0 s.trace s.fs → Linked fs0 (m s).2.trace (m s).2.fs

theorem Keeps.bind {fs0 : FS} {m : Prog Proc α} {f : α → Prog Proc β} (h1 : Keeps fs0 m) (h2 : ∀ a, Keeps fs0 (f a)) :
    Keeps fs0 (m >>= f) := by
  intro s hs
  have := h1 s hs
  rw [Prog.bind_apply]
  rcases hm : m s with ⟨e | a, s'⟩
  · rw [hm] at this; exact this
  · rw [hm] at this; exact h2 a s' this

theorem Keeps.pure {fs0 : FS} {a : α} : Keeps fs0 (Pure.pure a : Prog Proc α) := fun _ h => h
theorem Keeps.look {fs0 : FS} {f : FS → α} : Keeps fs0 (look (fun _ fs => fs) f) := fun _ h => h
theorem Keeps.act {fs0 : FS} {f : FS → Py FS} : Keeps fs0 (act (fun _ fs => fs) f) := by
  intro s h
  have hval : QuOCS.act (fun _ fs => fs) f s = match f s.fs with
      | .error e => (.error e, { s with tick := s.tick + 1 })
      | .ok fs' => (.ok (), { fs := fs', tick := s.tick + 1, trace := s.trace ++ [(s.fs, fs')] }) := rfl
  cases hf : f s.fs with
  | error e => rw [hf] at hval; rw [hval]; exact h
  | ok fs' => rw [hf] at hval; rw [hval]; exact linked_snoc h

theorem Keeps.makedirs {fs0 : FS} (p : Path) : Keeps fs0 (makedirs (fun _ fs => fs) p) := by
  induction p with
  | nil => exact Keeps.act
  | cons x p ih =>
    unfold QuOCS.makedirs
    refine Keeps.bind Keeps.look ?_
    intro c
    cases c with
    | true => exact Keeps.act
    | false =>
      refine Keeps.bind ?_ (fun _ => Keeps.act)
      intro s hs
      have := ih s hs
      unfold ignoreExists
      rcases hm : QuOCS.makedirs (fun _ fs => fs) p s with ⟨e | u, s'⟩
      · rw [hm] at this
        cases e <;> exact this
      · rw [hm] at this; exact this

theorem Keeps.startRun {fs0 : FS} (cwd : Path) (dt job version : String) (logfile : Bool) :
    Keeps fs0 (startRun (fun _ fs => fs) cwd dt job version logfile) := by
  unfold QuOCS.startRun
  refine Keeps.bind (Keeps.bind Keeps.look (fun c => ?_)) (fun _ => Keeps.bind Keeps.look (fun c => ?_))
  · cases c with
    | true => exact Keeps.pure
    | false => exact Keeps.makedirs _
  · cases c with
    | true => exact fun _ h => h
    | false =>
      refine Keeps.bind (Keeps.makedirs _) (fun _ => Keeps.bind Keeps.act (fun _ => Keeps.bind ?_ (fun _ => Keeps.pure)))
      cases logfile with
      | true => exact Keeps.act
      | false => exact Keeps.pure

theorem Keeps.wholeRun {fs0 : FS} (cwd : Path) (dt job version : String) (logfile : Bool) (ws : List RunWrite) :
    Keeps fs0 (wholeRun (fun _ fs => fs) cwd dt job version logfile ws) := by
  unfold QuOCS.wholeRun
  refine Keeps.bind (Keeps.startRun cwd dt job version logfile) (fun r => Keeps.bind ?_ (fun _ => Keeps.pure))
  induction ws with
  | nil => exact Keeps.pure
  | cons w ws ih =>
    cases w with
    | overwrite n c => exact Keeps.bind Keeps.act (fun _ => ih)
    | append n c => exact Keeps.bind Keeps.act (fun _ => ih)

/-- Nothing is deleted along a trace of quiet steps. -/
theorem linked_quiet {a b : FS} {tr : List (FS × FS)} (h : Linked a tr b) (hq : AllQuiet tr) :
    b.file = a.file ∧ ∀ p, a.isDir p = true → b.isDir p = true := by
  induction tr generalizing a with
  | nil => cases h; exact ⟨rfl, fun _ h => h⟩
  | cons t tr ih =>
    obtain ⟨rfl, h2⟩ := h
    obtain ⟨e1, e2⟩ := ih h2 (fun u hu => hq u (by simp [hu]))
    obtain ⟨q1, q2⟩ := hq t (by simp)
    exact ⟨e1.trans q1, fun p hp => e2 p (q2 p hp)⟩

theorem linked_inside {R : Path} {a b : FS} {tr : List (FS × FS)} (h : Linked a tr b) (hq : ∀ t ∈ tr, Inside R t) :
    Inside R (a, b) := by
  induction tr generalizing a with
  | nil => cases h; exact ⟨fun p hp => absurd rfl hp, fun _ h => h⟩
  | cons t tr ih =>
    obtain ⟨rfl, h2⟩ := h
    obtain ⟨e1, e2⟩ := ih h2 (fun u hu => hq u (by simp [hu]))
    obtain ⟨q1, q2⟩ := hq t (by simp)
    refine ⟨?_, fun p hp => e2 p (q2 p hp)⟩
    intro p hp
    by_cases hb : b.file p = t.2.file p
    · refine q1 p (fun e => hp (by show b.file p = t.1.file p; rw [hb, e]))
    · exact e1 p hb

theorem linked_append {a c : FS} {t1 t2 : List (FS × FS)} (h : Linked a (t1 ++ t2) c) :
    ∃ b, Linked a t1 b ∧ Linked b t2 c := by
  induction t1 generalizing a with
  | nil => exact ⟨a, rfl, h⟩
  | cons t ts ih =>
    obtain ⟨h1, h2⟩ := h
    obtain ⟨b, hb1, hb2⟩ := ih h2
    exact ⟨b, ⟨h1, hb1⟩, hb2⟩

end QuOCS.Folder

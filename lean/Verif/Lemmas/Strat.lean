/-
Weakest preconditions for search methods.
-/
import Verif.Spec.Search
import Verif.Lemmas.Prog

set_option linter.unusedSectionVars false

namespace QuOCS
variable {K V F α β : Type}

/-- `m.wp G A Q h`: started after the calls `h`, every call `o` of `m` satisfies `G` (given the calls so far), and `Q`
holds at the end, as long as the calls and answers satisfy `A`. -/
def Strat.wp (G : List (Ev K V F) → Op K V F → Prop) (A : List (Ev K V F) → Prop) :
    Strat K V F α → (List (Ev K V F) → α → Prop) → List (Ev K V F) → Prop
  | .ret a, Q, h => Q h a
  | .op o k, Q, h => G h o ∧ ∀ r, A (h ++ [⟨o, r⟩]) → (k r).wp G A Q (h ++ [⟨o, r⟩])

variable {G : List (Ev K V F) → Op K V F → Prop} {A : List (Ev K V F) → Prop}

theorem Strat.wp_pure (a : α) (Q : List (Ev K V F) → α → Prop) (h : List (Ev K V F)) :
    (pure a : Strat K V F α).wp G A Q h ↔ Q h a := Iff.rfl

theorem Strat.wp_bind (m : Strat K V F α) (f : α → Strat K V F β) (Q : List (Ev K V F) → β → Prop)
    (h : List (Ev K V F)) : (m >>= f).wp G A Q h ↔ m.wp G A (fun h a => (f a).wp G A Q h) h := by
  induction m generalizing h with
  | ret a => rfl
  | op o k ih =>
    rw [Strat.bind_op]
    simp only [Strat.wp]
    refine and_congr Iff.rfl (forall_congr' fun r => imp_congr Iff.rfl ?_)
    exact ih r _

theorem Strat.wp_call (o : Op K V F) (Q : List (Ev K V F) → o.Res → Prop) (h : List (Ev K V F)) :
    (Strat.call o).wp G A Q h ↔ G h o ∧ ∀ r, A (h ++ [⟨o, r⟩]) → Q (h ++ [⟨o, r⟩]) r := Iff.rfl

theorem Strat.wp_fail (e : PyErr) (Q : List (Ev K V F) → α → Prop) (h : List (Ev K V F)) :
    (Strat.fail e : Strat K V F α).wp G A Q h ↔ G h (.fail e) :=
  ⟨fun h => h.1, fun h => ⟨h, fun r => nomatch r⟩⟩

theorem Strat.wp_mono {m : Strat K V F α} {Q Q' : List (Ev K V F) → α → Prop} {h : List (Ev K V F)}
    (hm : m.wp G A Q h) (hQ : ∀ h a, Q h a → Q' h a) : m.wp G A Q' h := by
  induction m generalizing h with
  | ret a => exact hQ _ _ hm
  | op o k ih => exact ⟨hm.1, fun r hr => ih r (hm.2 r hr)⟩

/-- What `wp` says about the calls of the search method. -/
theorem Plays.of_wp {m m' : Strat K V F α} {evs : List (Ev K V F)} (hp : Plays m evs m')
    {Q : List (Ev K V F) → α → Prop} {h : List (Ev K V F)} (hA : ∀ pre post, evs = pre ++ post → A (h ++ pre))
    (hw : m.wp G A Q h) :
    (∀ pre o r post, evs = pre ++ ⟨o, r⟩ :: post → G (h ++ pre) o) ∧ m'.wp G A Q (h ++ evs) := by
  induction hp generalizing h with
  | nil m => exact ⟨fun pre o r post he => by simp at he, by simpa using hw⟩
  | cons o k r evs m' hp ih =>
    have h1 := hw.2 r (hA [⟨o, r⟩] evs rfl)
    obtain ⟨h2, h3⟩ := ih (h := h ++ [⟨o, r⟩])
      (fun pre post he => by
        have := hA (⟨o, r⟩ :: pre) post (by rw [he]; rfl)
        simpa using this) h1
    refine ⟨?_, by simpa using h3⟩
    intro pre o' r' post he
    rcases pre with _ | ⟨e, pre⟩
    · simp only [List.nil_append, List.cons.injEq, Sigma.mk.injEq] at he
      obtain ⟨⟨rfl, -⟩, -⟩ := he
      simpa using hw.1
    · simp only [List.cons_append, List.cons.injEq] at he
      obtain ⟨rfl, he⟩ := he
      have := h2 pre o' r' post he
      simpa using this

/-- Running a search method against a handler makes some calls; the run either finishes or ends with an exception of the
next call. -/
theorem interp_plays {S : Type} (hd : (o : Op K V F) → Prog S o.Res) (m : Strat K V F α) (s : S) :
    ∃ evs m' s1, Plays m evs m' ∧ Handled hd s evs s1 ∧
      ((∃ a, m' = .ret a ∧ m.interp hd s = (.ok a, s1)) ∨
       (∃ o k e s2, m' = .op o k ∧ hd o s1 = (.error e, s2) ∧ m.interp hd s = (.error e, s2))) := by
  induction m generalizing s with
  | ret a => exact ⟨[], .ret a, s, .nil _, rfl, .inl ⟨a, rfl, rfl⟩⟩
  | op o k ih =>
    rcases hs : hd o s with ⟨e | r, s'⟩
    · refine ⟨[], .op o k, s, .nil _, rfl, .inr ⟨o, k, e, s', rfl, hs, ?_⟩⟩
      rw [Strat.interp_op, Prog.bind_error hs]
    · obtain ⟨evs, m', s1, hp, hh, hr⟩ := ih r s'
      refine ⟨⟨o, r⟩ :: evs, m', s1, .cons _ _ _ _ _ hp, ⟨s', hs, hh⟩, ?_⟩
      have : Strat.interp hd (.op o k) s = (k r).interp hd s' := by rw [Strat.interp_op, Prog.bind_ok hs]
      rw [this]
      exact hr

theorem Handled.append {S : Type} {hd : (o : Op K V F) → Prog S o.Res} {s s' : S} {a b : List (Ev K V F)} :
    Handled hd s (a ++ b) s' ↔ ∃ s1, Handled hd s a s1 ∧ Handled hd s1 b s' := by
  induction a generalizing s with
  | nil => simp [Handled]
  | cons e a ih =>
    obtain ⟨o, r⟩ := e
    simp only [List.cons_append, Handled, ih]
    constructor
    · rintro ⟨s1, h1, s2, h2, h3⟩; exact ⟨s2, ⟨s1, h1, h2⟩, h3⟩
    · rintro ⟨s2, ⟨s1, h1, h2⟩, h3⟩; exact ⟨s1, h1, s2, h2, h3⟩

/-! ### histories -/

theorem evals_append (a b : List (Ev K V F)) : evals (a ++ b) = evals a ++ evals b := List.filterMap_append
theorem objectiveCalls_append (a b : List (Ev K V F)) :
    objectiveCalls (a ++ b) = objectiveCalls a + objectiveCalls b := List.countP_append

@[simp] theorem evals_eval (x : V) (it : ℕ) (f : F) : evals [(⟨.eval x it, f⟩ : Ev K V F)] = [(x, f)] := rfl
@[simp] theorem objectiveCalls_eval (x : V) (it : ℕ) (f : F) :
    objectiveCalls [(⟨.eval x it, f⟩ : Ev K V F)] = 1 := rfl
@[simp] theorem evals_drift (x : V) (it : ℕ) (v f : F) : evals [(⟨.drift x it v, f⟩ : Ev K V F)] = [] := rfl
@[simp] theorem objectiveCalls_drift (x : V) (it : ℕ) (v f : F) :
    objectiveCalls [(⟨.drift x it v, f⟩ : Ev K V F)] = 1 := rfl

theorem StopLaws.prefix {m : ℤ} {a b : List (Ev K V F)} (h : StopLaws m (a ++ b)) : StopLaws m a := by
  intro pre t mid r post he ht hb
  refine h pre t mid r (post ++ b) ?_ ht hb
  rw [he]; simp

/-- The history of a search that resets the stopping criteria once, at its beginning. -/
def ResetOnce (h : List (Ev K V F)) : Prop :=
  ∃ t, h = ⟨.setConv false, ()⟩ :: t ∧ ∀ b, (⟨.setConv b, ()⟩ : Ev K V F) ∉ t

/-- Some call made the stopping criteria say "converged". -/
def Triggered (m : ℤ) (h : List (Ev K V F)) : Prop := ∃ t ∈ h, Ev.Converges m t

theorem ResetOnce.snoc {h : List (Ev K V F)} (hr : ResetOnce h) {e : Ev K V F} (he : ∀ b, e.1 ≠ .setConv b) :
    ResetOnce (h ++ [e]) := by
  obtain ⟨t, rfl, ht⟩ := hr
  refine ⟨t ++ [e], rfl, fun b hb => ?_⟩
  rcases List.mem_append.1 hb with hb | hb
  · exact ht b hb
  · simp only [List.mem_singleton] at hb
    exact he b (by rw [← hb])

theorem Triggered.append {m : ℤ} {h : List (Ev K V F)} (hr : Triggered m h) (g : List (Ev K V F)) :
    Triggered m (h ++ g) := by
  obtain ⟨t, ht, hc⟩ := hr
  exact ⟨t, List.mem_append_left _ ht, hc⟩

theorem StopLaws.conv {m : ℤ} {h : List (Ev K V F)} {r : Bool} (hs : StopLaws m (h ++ [⟨.readConv, r⟩]))
    (hr : ResetOnce h) (ht : Triggered m h) : r = true := by
  obtain ⟨t, rfl, hb⟩ := hr
  obtain ⟨e, he, hc⟩ := ht
  rcases List.mem_cons.1 he with rfl | he
  · exact absurd hc id
  · obtain ⟨p, q, rfl⟩ := List.append_of_mem he
    refine hs (⟨.setConv false, ()⟩ :: p) e q r [] (by simp) hc (fun b hm => hb b ?_)
    simp [hm]

end QuOCS

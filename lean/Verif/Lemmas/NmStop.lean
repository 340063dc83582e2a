/-
The Nelder-Mead search ends.
-/
import Verif.Lemmas.Handler
import Verif.Model.NelderMead

set_option linter.unusedSectionVars false
set_option linter.unusedVariables false

namespace QuOCS
namespace NM

variable {K F : Type} {n : ℕ} [Field K] [LinearOrder K]
variable [Add F] [Sub F] [Mul F] [Div F] [Neg F] [Zero F] [One F] [NatCast F] [LE F] [LT F] [DecidableLE F]
  [DecidableLT F]

/-- exceptions other than the marker of a cut-off loop -/
def NotMarker (e : PyErr) : Prop := e ≠ .outOfFuel

/-- no call raises the marker; the flag is only reset in the beginning; `userStop` only follows a negative callback -/
def G2 (h : List (Ev K (Vec K n) F)) : Op K (Vec K n) F → Prop
  | .setConv b => h = [] ∧ b = false
  | .userStop => ∃ pre, h = pre ++ [⟨.callback, false⟩]
  | o => OpErrs NotMarker o

theorem G2.errs {h : List (Ev K (Vec K n) F)} {o : Op K (Vec K n) F} (hg : G2 h o) : OpErrs NotMarker o := by
  cases o <;> first | exact trivial | exact hg

/-- the search has seen that it is stopped, and has only asked for the reason since then -/
def SawStop (h : List (Ev K (Vec K n) F)) : Prop := ∃ pre, h = pre ++ [⟨.readConv, true⟩]

/-- the laws of a run -/
def A2 (m : ℤ) (M : ℕ) (h : List (Ev K (Vec K n) F)) : Prop := StopLaws m h ∧ BudgetLaws M h

variable {c : NmCfg K F n} {co : NmCoef K} {m : ℤ} {M : ℕ} {h h' : List (Ev K (Vec K n) F)} {s s' : NmState K F n}

/-- `h'` is a continuation of `h` -/
structure Later (m : ℤ) (h h' : List (Ev K (Vec K n) F)) : Prop where
  reset : ResetOnce h → ResetOnce h'
  evals : (evals h).length ≤ (evals h').length
  trig : Triggered m h → Triggered m h'

theorem Later.refl (h : List (Ev K (Vec K n) F)) : Later m h h := ⟨id, le_rfl, id⟩
theorem Later.trans {h'' : List (Ev K (Vec K n) F)} (a : Later m h h') (b : Later m h' h'') : Later m h h'' :=
  ⟨fun x => b.reset (a.reset x), a.evals.trans b.evals, fun x => b.trig (a.trig x)⟩
theorem Later.snoc {e : Ev K (Vec K n) F} (he : ∀ b, e.1 ≠ .setConv b) : Later m h (h ++ [e]) :=
  ⟨fun r => r.snoc he, by rw [evals_append]; simp, fun t => t.append _⟩

/-- a call that is not an exception -/
theorem wp_call2 {o : Op K (Vec K n) F} {Q : List (Ev K (Vec K n) F) → o.Res → Prop} (hG : G2 h o)
    (hQ : ∀ r, A2 m M (h ++ [⟨o, r⟩]) → Q (h ++ [⟨o, r⟩]) r) : (Strat.call o).wp G2 (A2 m M) Q h :=
  (Strat.wp_call _ _ _).2 ⟨hG, hQ⟩

/-- continuing with the rest of the program -/
theorem wp_next {α β : Type} {a : Strat K (Vec K n) F α} {f : α → Strat K (Vec K n) F β}
    (ha : a.wp G2 (A2 m M) (fun h' _ => Later m h h') h)
    (hf : ∀ h' x, Later m h h' → (f x).wp G2 (A2 m M) (fun h'' _ => Later m h' h'') h') :
    (a >>= f).wp G2 (A2 m M) (fun h' _ => Later m h h') h := by
  rw [Strat.wp_bind]
  exact Strat.wp_mono ha fun h' x l => Strat.wp_mono (hf h' x l) fun h'' _ l' => l.trans l'

theorem wp_pure2 {α : Type} (a : α) : (pure a : Strat K (Vec K n) F α).wp G2 (A2 m M) (fun h' _ => Later m h h') h :=
  .refl _

theorem wp_op2 {o : Op K (Vec K n) F} (hG : G2 h o) (ho : ∀ b, o ≠ .setConv b) :
    (Strat.call o).wp G2 (A2 m M) (fun h' _ => Later m h h') h := wp_call2 hG fun r _ => .snoc ho

theorem wp_ite2 {α : Type} {p : Prop} [Decidable p] {a b : Strat K (Vec K n) F α}
    (ha : p → a.wp G2 (A2 m M) (fun h' _ => Later m h h') h) (hb : ¬ p → b.wp G2 (A2 m M) (fun h' _ => Later m h h') h) :
    (if p then a else b).wp G2 (A2 m M) (fun h' _ => Later m h h') h := by
  by_cases hp : p
  · rw [if_pos hp]; exact ha hp
  · rw [if_neg hp]; exact hb hp

theorem eval2 (x : Vec K n) : (nmEval x s).wp G2 (A2 m M) (fun h' _ => Later m h h') h :=
  wp_next (wp_op2 trivial (fun b => by simp)) fun _ _ _ => wp_pure2 _

theorem conv2 : (nmConv : Strat K (Vec K n) F Bool).wp G2 (A2 m M) (fun h' _ => Later m h h') h :=
  wp_op2 trivial (fun b => by simp)

theorem init2 (ks : List (Fin (n + 1))) : (nmInit ks s).wp G2 (A2 m M) (fun h' _ => Later m h h') h := by
  induction ks generalizing h s with
  | nil => exact .refl _
  | cons k ks ih => exact wp_next (eval2 _) fun h' q l => ih

theorem shrink2 (js : List (Fin (n + 1))) : (nmShrink co js s).wp G2 (A2 m M) (fun h' _ => Later m h h') h := by
  induction js generalizing h s with
  | nil => exact .refl _
  | cons j js ih =>
    exact wp_next conv2 fun h' b l => wp_ite2 (fun _ => wp_pure2 _) fun _ => wp_next (eval2 _) fun h' q l => ih

theorem expand2 (xbar xr : Vec K n) (fxr : F) :
    (nmExpand co xbar xr fxr s).wp G2 (A2 m M) (fun h' _ => Later m h h') h :=
  wp_next conv2 fun h' b l => wp_ite2 (fun _ => wp_pure2 _) fun _ => wp_next (eval2 _) fun h' q l =>
    wp_ite2 (fun _ => wp_pure2 _) fun _ => wp_pure2 _

theorem outside2 (xbar : Vec K n) (fxr : F) :
    (nmOutside co xbar fxr s).wp G2 (A2 m M) (fun h' _ => Later m h h') h :=
  wp_next conv2 fun h' b l => wp_ite2 (fun _ => wp_pure2 _) fun _ => wp_next (eval2 _) fun h' q l =>
    wp_ite2 (fun _ => wp_pure2 _) fun _ => wp_next (shrink2 _) fun h' q l => wp_pure2 _

theorem inside2 (xbar : Vec K n) : (nmInside co xbar s).wp G2 (A2 m M) (fun h' _ => Later m h h') h :=
  wp_next conv2 fun h' b l => wp_ite2 (fun _ => wp_pure2 _) fun _ => wp_next (eval2 _) fun h' q l =>
    wp_ite2 (fun _ => wp_pure2 _) fun _ => wp_next (shrink2 _) fun h' q l => wp_pure2 _

theorem secondWorst_err {f : Fin (n + 1) → F} {e : PyErr} (h : secondWorst f = .error e) : e = .indexError := by
  cases n with
  | zero => cases h; rfl
  | succ n => cases h

theorem contract2 (xbar xr : Vec K n) (fxr : F) :
    (nmContract co xbar xr fxr s).wp G2 (A2 m M) (fun h' _ => Later m h h') h := by
  unfold nmContract
  rcases hs : secondWorst s.fsim with e | f2
  · have := secondWorst_err hs
    subst this
    exact ⟨(show NotMarker .indexError by simp [NotMarker]), fun r => nomatch r⟩
  · exact wp_ite2 (fun _ => wp_pure2 _) fun _ => wp_ite2 (fun _ => outside2 _ _) fun _ => inside2 _

/-- a move evaluates at least once -/
theorem move2 : (nmMove co s).wp G2 (A2 m M)
    (fun h' _ => Later m h h' ∧ (evals h).length + 1 ≤ (evals h').length) h := by
  unfold nmMove nmEval
  simp only []
  rw [Strat.wp_bind, Strat.wp_bind, Strat.wp_call]
  refine ⟨trivial, fun f _ => (Strat.wp_pure _ _ _).2 ?_⟩
  have l1 : ∀ x it, Later m h (h ++ [(⟨.eval x it, f⟩ : Ev K (Vec K n) F)]) := fun x it => .snoc (fun b => by simp)
  have l2 : ∀ x it, (evals (h ++ [(⟨.eval x it, f⟩ : Ev K (Vec K n) F)])).length = (evals h).length + 1 := fun x it => by
    rw [evals_append]; simp
  refine Strat.wp_mono (Q := fun h' _ => Later m _ h')
    (wp_ite2 (fun _ => expand2 _ _ _) fun _ => contract2 _ _ _) fun h' q l => ?_
  exact ⟨(l1 _ _).trans l, by have := l.evals; rw [l2] at this; exact this⟩

theorem sum2 (j : ℕ) (acc : F) : (nmSum j acc s).wp G2 (A2 m M) (fun h' _ => Later m h h') h := by
  induction j generalizing h s acc with
  | zero => exact .refl _
  | succ j ih => exact wp_next (eval2 _) fun h' q l => ih _

theorem drift2 : (nmDrift c s).wp G2 (A2 m M) (fun h' _ => Later m h h') h := by
  unfold nmDrift nmDriftDo
  refine wp_ite2 (fun _ => wp_next conv2 fun h' b l => wp_ite2 (fun _ => wp_pure2 _) fun _ =>
    wp_next (wp_op2 trivial (fun b => by simp)) fun h' t l => wp_ite2 (fun _ => ?_) fun _ => wp_pure2 _) fun _ => wp_pure2 _
  refine wp_next (sum2 _ _) fun h' q l => wp_ite2 (fun _ => ?_) fun _ => ?_
  · exact (Strat.wp_fail _ _ _).2 (show NotMarker .zeroDivision by simp [NotMarker])
  · exact wp_next (wp_op2 trivial (fun b => by simp)) fun h' q l =>
      wp_next (wp_op2 trivial (fun b => by simp)) fun h' q l => wp_pure2 _

theorem simplexSize_err {sim : Fin (n + 1) → Vec K n} {e : PyErr} (h : simplexSize sim = .error e) : e = .valueError := by
  unfold simplexSize at h
  split at h <;> cases h
  rfl

/-- at the end of an iteration the search is told to stop, or the budget is not used up -/
theorem finish2 : (nmFinish s).wp G2 (A2 m M)
    (fun h' _ => Later m h h' ∧ (Triggered m h' ∨ (evals h').length ≤ M)) h := by
  have hsz : ∀ e, simplexSize s.sim = .error e → NotMarker e := fun e he => by
    rw [simplexSize_err he]; simp [NotMarker]
  unfold nmFinish
  simp only []
  rw [Strat.wp_bind, Strat.wp_call]
  refine ⟨trivial, fun b hb => ?_⟩
  cases b
  · simp only [Bool.false_eq_true, if_false]
    rw [Strat.wp_bind, Strat.wp_call]
    refine ⟨⟨h, rfl⟩, fun u _ => ?_⟩
    rw [Strat.wp_bind, Strat.wp_call]
    refine ⟨hsz, fun v _ => (Strat.wp_pure _ _ _).2 ⟨?_, .inl ?_⟩⟩
    · exact (Later.snoc (fun b => by simp)).trans ((Later.snoc (fun b => by simp)).trans (Later.snoc (fun b => by simp)))
    · exact ⟨⟨.userStop, u⟩, by simp, trivial⟩
  · simp only [if_true]
    rw [Strat.wp_bind]
    refine (Strat.wp_call _ _ _).2 ⟨hsz, fun v _ => (Strat.wp_pure _ _ _).2 ⟨?_, .inr ?_⟩⟩
    · exact (Later.snoc (fun b => by simp)).trans (Later.snoc (fun b => by simp))
    · have := hb.2 h [] (by simp)
      rw [evals_append, evals_append]
      change (evals h ++ [] ++ []).length ≤ M
      simpa using this

theorem loop2 (f : ℕ) (hr : ResetOnce h) (hf : (Triggered m h ∧ 1 ≤ f) ∨ ∃ j, j ≤ M ∧ j ≤ (evals h).length ∧ M + 2 ≤ f + j) :
    (nmLoop c co f s).wp G2 (A2 m M) (fun _ _ => True) h := by
  induction f generalizing h s with
  | zero => exfalso; rcases hf with h | ⟨j, h1, h2, h3⟩ <;> omega
  | succ f ih =>
    unfold nmLoop nmConv
    rw [Strat.wp_bind, Strat.wp_call]
    refine ⟨trivial, fun b hA => ?_⟩
    cases b
    swap
    · exact trivial
    simp only [Bool.false_eq_true, if_false]
    have nt : ¬ Triggered m h := fun ht => by cases hA.1.conv hr ht
    obtain ⟨j, h1, h2, h3⟩ := hf.resolve_left fun h => nt h.1
    have l0 : Later m h (h ++ [(⟨.readConv, false⟩ : Ev K (Vec K n) F)]) := .snoc (fun b => by simp)
    rw [Strat.wp_bind]
    refine Strat.wp_mono move2 ?_
    rintro h1' ⟨brk, s1⟩ ⟨l1, e1⟩
    cases brk
    swap
    · exact trivial
    simp only [Bool.false_eq_true, if_false]
    rw [Strat.wp_bind]
    refine Strat.wp_mono drift2 fun h2' s2 l2 => ?_
    rw [Strat.wp_bind]
    refine Strat.wp_mono finish2 ?_
    rintro h3' s3 ⟨l3, t3⟩
    have l := l0.trans (l1.trans (l2.trans l3))
    have e0 := l0.evals
    have e2 := l2.evals
    have e3 := l3.evals
    refine ih (l.reset hr) ?_
    rcases t3 with t3 | t3
    · exact .inl ⟨t3, by omega⟩
    · exact .inr ⟨j + 1, by omega, by omega, by omega⟩

theorem run2 (fuel : ℕ) (hf : M + 2 ≤ fuel) (sim : Fin (n + 1) → Vec K n) :
    (nmRun c fuel sim).wp G2 (A2 m M) (fun _ _ => True) [] := by
  unfold nmRun
  rw [Strat.wp_bind, Strat.wp_call]
  refine ⟨⟨rfl, rfl⟩, fun u _ => ?_⟩
  rw [Strat.wp_bind, Strat.wp_call]
  refine ⟨trivial, fun t0 _ => ?_⟩
  rw [Strat.wp_bind, Strat.wp_call]
  refine ⟨trivial, fun t _ => ?_⟩
  rw [Strat.wp_bind]
  have h0 : ResetOnce ([] ++ [(⟨.setConv false, u⟩ : Ev K (Vec K n) F)] ++ [⟨.now, t0⟩] ++ [⟨.now, t⟩]) :=
    ⟨[⟨.now, t0⟩, ⟨.now, t⟩], rfl, fun b => by simp⟩
  refine Strat.wp_mono (init2 _) fun h s l => ?_
  rw [Strat.wp_bind]
  refine Strat.wp_mono (loop2 fuel (l.reset h0) (.inr ⟨0, by omega, by omega, by omega⟩)) fun h' s' _ => ?_
  rw [Strat.wp_bind, Strat.wp_call]
  exact ⟨trivial, fun r _ => trivial⟩

/-! ### the search ends only when it has seen that it is stopped -/

/-- nothing is required -/
abbrev T1 (_ : List (Ev K (Vec K n) F)) (_ : Op K (Vec K n) F) : Prop := True
/-- nothing is assumed -/
abbrev T2 (_ : List (Ev K (Vec K n) F)) : Prop := True

theorem wp_triv {α : Type} (a : Strat K (Vec K n) F α) (h : List (Ev K (Vec K n) F)) :
    a.wp T1 T2 (fun _ _ => True) h := by
  induction a generalizing h with
  | ret a => exact trivial
  | op o k ih => exact ⟨trivial, fun r _ => ih r _⟩

/-- leaving the loop early -/
def BrkPost (h : List (Ev K (Vec K n) F)) (q : Bool × NmState K F n) : Prop := q.1 = true → SawStop h

theorem BrkPost.pure (q : NmState K F n) : (pure (false, q) : Strat K (Vec K n) F _).wp T1 T2 BrkPost h :=
  fun hq => by cases hq

theorem wp_skip {α β : Type} {a : Strat K (Vec K n) F α} {f : α → Strat K (Vec K n) F β}
    {Q : List (Ev K (Vec K n) F) → β → Prop} (hf : ∀ h x, (f x).wp T1 T2 Q h) : (a >>= f).wp T1 T2 Q h := by
  rw [Strat.wp_bind]
  exact Strat.wp_mono (wp_triv a h) fun h' x _ => hf h' x

theorem wp_ite3 {α : Type} {p : Prop} [Decidable p] {a b : Strat K (Vec K n) F α}
    {Q : List (Ev K (Vec K n) F) → α → Prop} (ha : a.wp T1 T2 Q h) (hb : b.wp T1 T2 Q h) :
    (if p then a else b).wp T1 T2 Q h := by split <;> assumption

/-- the pattern of the early exits -/
theorem wp_exit (s1 : NmState K F n) {b : Strat K (Vec K n) F (Bool × NmState K F n)}
    (hb : ∀ h, b.wp T1 T2 BrkPost h) :
    (nmConv >>= fun c => if c = true then pure (true, s1) else b : Strat K (Vec K n) F _).wp T1 T2 BrkPost h := by
  unfold nmConv
  rw [Strat.wp_bind, Strat.wp_call]
  refine ⟨trivial, fun c _ => ?_⟩
  cases c
  · exact hb _
  · exact fun _ => ⟨h, rfl⟩

theorem expand3 (xbar xr : Vec K n) (fxr : F) : (nmExpand co xbar xr fxr s).wp T1 T2 BrkPost h :=
  wp_exit s fun h => wp_skip fun h q => wp_ite3 (.pure _) (.pure _)

theorem outside3 (xbar : Vec K n) (fxr : F) : (nmOutside co xbar fxr s).wp T1 T2 BrkPost h :=
  wp_exit s fun h => wp_skip fun h q => wp_ite3 (.pure _) (wp_skip fun h q => .pure _)

theorem inside3 (xbar : Vec K n) : (nmInside co xbar s).wp T1 T2 BrkPost h :=
  wp_exit s fun h => wp_skip fun h q => wp_ite3 (.pure _) (wp_skip fun h q => .pure _)

theorem move3 : (nmMove co s).wp T1 T2 BrkPost h :=
  wp_skip fun h q => wp_ite3 (expand3 _ _ _) (wp_skip fun h f2 => wp_ite3 (.pure _) (wp_ite3 (outside3 _ _) (inside3 _)))

theorem loop3 (f : ℕ) : (nmLoop c co f s).wp T1 T2 (fun h _ => SawStop h) h := by
  induction f generalizing h s with
  | zero => exact (Strat.wp_fail _ _ _).2 trivial
  | succ f ih =>
    unfold nmLoop nmConv
    rw [Strat.wp_bind, Strat.wp_call]
    refine ⟨trivial, fun b hA => ?_⟩
    cases b
    swap
    · exact ⟨h, rfl⟩
    simp only [Bool.false_eq_true, if_false]
    rw [Strat.wp_bind]
    refine Strat.wp_mono move3 ?_
    rintro h1 ⟨brk, s1⟩ hb
    cases brk
    · simp only [Bool.false_eq_true, if_false]
      exact wp_skip fun h q => wp_skip fun h q => ih
    · exact hb rfl

/-- when the search has ended, the last things it did were to see the stop and to ask for the reason -/
theorem run3 (fuel : ℕ) (sim : Fin (n + 1) → Vec K n) :
    (nmRun c fuel sim).wp T1 T2 (fun h r => ∃ pre, h = pre ++ [⟨.readConv, true⟩, ⟨.reason, r.reason⟩]) h := by
  unfold nmRun
  refine wp_skip fun h _ => wp_skip fun h _ => wp_skip fun h _ => wp_skip fun h s => ?_
  rw [Strat.wp_bind]
  refine Strat.wp_mono (loop3 fuel) ?_
  rintro h s ⟨pre, rfl⟩
  rw [Strat.wp_bind, Strat.wp_call]
  exact ⟨trivial, fun r _ => (Strat.wp_pure _ _ _).2 ⟨pre, by simp⟩⟩

/-! ### after the criteria were checked the objective is only called again if the search was seen to go on -/

/-- since the last check of the criteria the search was seen to go on -/
def Fresh (h : List (Ev K (Vec K n) F)) : Prop :=
  ∀ pre size fs calls u mid, h = pre ++ ⟨.checkNM size fs calls, u⟩ :: mid → (⟨.readConv, false⟩ : Ev K (Vec K n) F) ∈ mid

/-- the objective is only called in that case -/
def G5 (h : List (Ev K (Vec K n) F)) : Op K (Vec K n) F → Prop
  | .eval _ _ => Fresh h
  | .drift _ _ _ => Fresh h
  | _ => True

theorem Fresh.snoc {o : Op K (Vec K n) F} {r : o.Res} (hf : Fresh h) (ho : ∀ a b c, o ≠ .checkNM a b c) :
    Fresh (h ++ [⟨o, r⟩]) := by
  intro pre size fs calls u mid he
  rcases List.eq_nil_or_concat mid with rfl | ⟨mid, e, rfl⟩
  · obtain ⟨-, h2⟩ := List.append_inj' (t₁ := [_]) (t₂ := [_]) he rfl
    injection h2 with h2
    exact absurd (congrArg Sigma.fst h2) (ho _ _ _)
  · rw [List.concat_eq_append] at he ⊢
    rw [← List.cons_append, ← List.append_assoc] at he
    obtain ⟨h1, -⟩ := List.append_inj' he rfl
    exact List.mem_append_left _ (hf _ _ _ _ _ _ h1)

theorem Fresh.go_on : Fresh (h ++ [(⟨.readConv, false⟩ : Ev K (Vec K n) F)]) := by
  intro pre size fs calls u mid he
  rcases List.eq_nil_or_concat mid with rfl | ⟨mid, e, rfl⟩
  · obtain ⟨-, h2⟩ := List.append_inj' (t₁ := [_]) (t₂ := [_]) he rfl
    injection h2 with h2
    cases congrArg Sigma.fst h2
  · rw [List.concat_eq_append] at he ⊢
    rw [← List.cons_append, ← List.append_assoc] at he
    obtain ⟨-, h2⟩ := List.append_inj' he rfl
    injection h2 with h2
    rw [h2]; simp

/-- a piece of the search that does not check the criteria -/
def Keeps {α : Type} (a : Strat K (Vec K n) F α) : Prop := ∀ h, Fresh h → a.wp G5 T2 (fun h _ => Fresh h) h

theorem Keeps.pure {α : Type} (a : α) : Keeps (Pure.pure a : Strat K (Vec K n) F α) := fun _ hf => hf

theorem Keeps.call {o : Op K (Vec K n) F} (ho : ∀ a b c, o ≠ .checkNM a b c) : Keeps (Strat.call o) := fun h hf =>
  (Strat.wp_call _ _ _).2 ⟨by cases o <;> first | exact hf | exact trivial, fun _ _ => hf.snoc ho⟩

theorem Keeps.bind {α β : Type} {a : Strat K (Vec K n) F α} {f : α → Strat K (Vec K n) F β} (ha : Keeps a)
    (hf : ∀ x, Keeps (f x)) : Keeps (a >>= f) := fun h hh => by
  rw [Strat.wp_bind]
  exact Strat.wp_mono (ha h hh) fun h' x hx => hf x h' hx

theorem Keeps.ite {α : Type} {p : Prop} [Decidable p] {a b : Strat K (Vec K n) F α} (ha : Keeps a) (hb : Keeps b) :
    Keeps (if p then a else b) := by split <;> assumption

theorem Keeps.fail {α : Type} (e : PyErr) : Keeps (Strat.fail e : Strat K (Vec K n) F α) := fun h hf =>
  (Strat.wp_fail _ _ _).2 trivial

theorem Keeps.lift {α : Type} (x : Py α) : Keeps (Strat.lift x : Strat K (Vec K n) F α) := by
  cases x
  · exact .fail _
  · exact .pure _

theorem Keeps.eval (x : Vec K n) : Keeps (nmEval x s) := .bind (.call (by simp)) fun _ => .pure _
theorem Keeps.conv : Keeps (nmConv : Strat K (Vec K n) F Bool) := .call (by simp)

theorem Keeps.init (ks : List (Fin (n + 1))) : Keeps (nmInit ks s) := by
  induction ks generalizing s with
  | nil => exact .pure _
  | cons k ks ih => exact .bind (.eval _) fun _ => ih

theorem Keeps.shrink (js : List (Fin (n + 1))) : Keeps (nmShrink co js s) := by
  induction js generalizing s with
  | nil => exact .pure _
  | cons j js ih => exact .bind .conv fun _ => .ite (.pure _) (.bind (.eval _) fun _ => ih)

theorem Keeps.expand (xbar xr : Vec K n) (fxr : F) : Keeps (nmExpand co xbar xr fxr s) :=
  .bind .conv fun _ => .ite (.pure _) (.bind (.eval _) fun _ => .ite (.pure _) (.pure _))

theorem Keeps.outside (xbar : Vec K n) (fxr : F) : Keeps (nmOutside co xbar fxr s) :=
  .bind .conv fun _ => .ite (.pure _) (.bind (.eval _) fun _ => .ite (.pure _) (.bind (.shrink _) fun _ => .pure _))

theorem Keeps.inside (xbar : Vec K n) : Keeps (nmInside co xbar s) :=
  .bind .conv fun _ => .ite (.pure _) (.bind (.eval _) fun _ => .ite (.pure _) (.bind (.shrink _) fun _ => .pure _))

theorem Keeps.move : Keeps (nmMove co s) :=
  .bind (.eval _) fun _ => .ite (.expand _ _ _) (.bind (.lift _) fun _ => .ite (.pure _) (.ite (.outside _ _) (.inside _)))

theorem Keeps.sum (j : ℕ) (acc : F) : Keeps (nmSum j acc s) := by
  induction j generalizing s acc with
  | zero => exact .pure _
  | succ j ih => exact .bind (.eval _) fun _ => ih _

theorem Keeps.drift : Keeps (nmDrift c s) :=
  .ite (.bind .conv fun _ => .ite (.pure _) (.bind (.call (by simp)) fun _ => .ite
    (.bind (.sum _ _) fun _ => .ite (.fail _) (.bind (.call (by simp)) fun _ => .bind (.call (by simp)) fun _ => .pure _))
    (.pure _))) (.pure _)

theorem finish5 : (nmFinish s).wp G5 T2 (fun _ _ => True) h := by
  unfold nmFinish
  simp only []
  rw [Strat.wp_bind, Strat.wp_call]
  refine ⟨trivial, fun b _ => ?_⟩
  cases b
  · simp only [Bool.false_eq_true, if_false]
    rw [Strat.wp_bind, Strat.wp_call]
    refine ⟨trivial, fun u _ => ?_⟩
    rw [Strat.wp_bind, Strat.wp_call]
    exact ⟨trivial, fun v _ => trivial⟩
  · simp only [if_true]
    rw [Strat.wp_bind]
    exact (Strat.wp_call _ _ _).2 ⟨trivial, fun v _ => trivial⟩

theorem loop5 (f : ℕ) : (nmLoop c co f s).wp G5 T2 (fun _ _ => True) h := by
  induction f generalizing h s with
  | zero => exact (Strat.wp_fail _ _ _).2 trivial
  | succ f ih =>
    unfold nmLoop nmConv
    rw [Strat.wp_bind, Strat.wp_call]
    refine ⟨trivial, fun b _ => ?_⟩
    cases b
    swap
    · exact trivial
    simp only [Bool.false_eq_true, if_false]
    rw [Strat.wp_bind]
    refine Strat.wp_mono (Keeps.move _ .go_on) ?_
    rintro h1 ⟨brk, s1⟩ hb
    cases brk
    · simp only [Bool.false_eq_true, if_false]
      rw [Strat.wp_bind]
      refine Strat.wp_mono (Keeps.drift _ hb) fun h2 s2 hb => ?_
      rw [Strat.wp_bind]
      exact Strat.wp_mono finish5 fun h3 s3 _ => ih
    · exact trivial

theorem run5 (fuel : ℕ) (sim : Fin (n + 1) → Vec K n) : (nmRun c fuel sim).wp G5 T2 (fun _ _ => True) [] := by
  have hf : Fresh ([] : List (Ev K (Vec K n) F)) := fun pre _ _ _ _ mid he => by cases pre <;> cases he
  unfold nmRun
  rw [Strat.wp_bind]
  refine Strat.wp_mono (Keeps.call (by simp) _ hf) fun h _ hf => ?_
  rw [Strat.wp_bind]
  refine Strat.wp_mono (Keeps.call (by simp) _ hf) fun h _ hf => ?_
  rw [Strat.wp_bind]
  refine Strat.wp_mono (Keeps.call (by simp) _ hf) fun h _ hf => ?_
  rw [Strat.wp_bind]
  refine Strat.wp_mono (Keeps.init _ _ hf) fun h s hf => ?_
  rw [Strat.wp_bind]
  refine Strat.wp_mono (loop5 fuel) fun h s _ => ?_
  rw [Strat.wp_bind, Strat.wp_call]
  exact ⟨trivial, fun _ _ => trivial⟩

section
variable {C O : Type} {cfg : AlgCfg K F} {env : Env (Vec K n) C F} {ops : CtlOps O (Vec K n) C}

/-- inside a run the search never reaches the cut-off -/
theorem nelderMead_safe (hE : Errs env ops NotMarker) (fuel : ℕ) (hf : cfg.maxEvalTotal.toNat + 2 ≤ fuel)
    (i : ℕ) (x : Vec K n) (sim : List (Vec K n)) (sg : Vec K n) :
    Safe (fun _ => True) NotMarker ((nelderMead c fuel i x sim sg).interp (algHandler cfg env ops)) := by
  intro s _
  refine ⟨trivial, fun e he => ?_⟩
  unfold nelderMead at he
  split at he
  swap
  · cases he; simp [NotMarker]
  obtain ⟨evs, m', s1, hp, hh, hr⟩ := interp_plays (algHandler cfg env ops) (nmRun c fuel fun i => sim[i]) s
  rcases hr with ⟨a, rfl, hr⟩ | ⟨o, k, e', s2, rfl, ho, hr⟩
  · rw [hr] at he; cases he
  · rw [hr] at he; cases he
    have hw := (hp.of_wp (A := A2 cfg.sc.maxEval cfg.maxEvalTotal.toNat) (h := []) (fun pre post hpp => by
      have h1 := hh.stopLaws
      have h2 := hh.budgetLaws
      rw [hpp] at h1
      refine ⟨h1.prefix, fun pre' post' he' => h2 pre' (post' ++ post) ?_⟩
      simp only [List.nil_append] at he'
      rw [hpp, he']; simp) (run2 fuel hf _)).2
    have hT : Stable ops (fun _ : AlgState (Vec K n) C O F => True) := .triv
    have := ((hT.handler' hE (fun _ _ _ => trivial) o hw.1.errs : Safe _ _ (algHandler cfg env ops o)) s1 trivial).2 e
    exact this (by rw [ho])

theorem bind_fuel {S α β : Type} {m : Prog S α} {f g : α → Prog S β} {s : S} {e : PyErr}
    (h : ((m >>= f) s).1 ≠ .error e) (hfg : ∀ a s', (f a s').1 ≠ .error e → g a s' = f a s') :
    (m >>= g) s = (m >>= f) s := by
  rw [Prog.bind_apply] at h ⊢
  rw [Prog.bind_apply]
  rcases hm : m s with ⟨e' | a, s'⟩
  · rfl
  · rw [hm] at h
    exact hfg a s' h

/-- more rounds do not change a search that ends -/
theorem loop_fuel (f g : ℕ) (hg : f ≤ g) (st : NmState K F n) (s : AlgState (Vec K n) C O F)
    (h : ((nmLoop c co f st).interp (algHandler cfg env ops) s).1 ≠ .error .outOfFuel) :
    (nmLoop c co g st).interp (algHandler cfg env ops) s = (nmLoop c co f st).interp (algHandler cfg env ops) s := by
  induction f generalizing g st s with
  | zero => exact absurd rfl h
  | succ f ih =>
    obtain ⟨g, rfl⟩ : ∃ g', g = g' + 1 := ⟨g - 1, by omega⟩
    unfold nmLoop at h ⊢
    rw [Strat.interp_bind] at h ⊢
    rw [Strat.interp_bind]
    refine bind_fuel h fun b s1 h1 => ?_
    cases b
    swap
    · rfl
    simp only [Bool.false_eq_true, if_false] at h1 ⊢
    rw [Strat.interp_bind] at h1 ⊢
    rw [Strat.interp_bind]
    refine bind_fuel h1 fun q s2 h2 => ?_
    obtain ⟨b, st2⟩ := q
    cases b
    swap
    · rfl
    simp only [Bool.false_eq_true, if_false] at h2 ⊢
    rw [Strat.interp_bind] at h2 ⊢
    rw [Strat.interp_bind]
    refine bind_fuel h2 fun st3 s3 h3 => ?_
    rw [Strat.interp_bind] at h3 ⊢
    rw [Strat.interp_bind]
    refine bind_fuel h3 fun st4 s4 h4 => ?_
    exact ih g (by omega) st4 s4 h4

theorem nelderMead_fuel (hE : Errs env ops NotMarker) (fuel : ℕ) (hf : cfg.maxEvalTotal.toNat + 2 ≤ fuel)
    (i : ℕ) (x : Vec K n) (sim : List (Vec K n)) (sg : Vec K n) :
    (nelderMead c fuel i x sim sg).interp (algHandler cfg env ops) =
      (nelderMead c (cfg.maxEvalTotal.toNat + 2) i x sim sg).interp (algHandler cfg env ops) := by
  funext s
  have h := nelderMead_safe (c := c) hE (cfg.maxEvalTotal.toNat + 2) le_rfl i x sim sg s trivial
  have h := h.2
  unfold nelderMead at h ⊢
  split
  swap
  · rfl
  rename_i hl
  rw [dif_pos hl] at h
  have h : ((nmRun c (cfg.maxEvalTotal.toNat + 2) fun i => sim[i]).interp (algHandler cfg env ops) s).1 ≠
    .error .outOfFuel := fun he => h _ he rfl
  unfold nmRun at h ⊢
  simp only [Strat.interp_bind] at h ⊢
  refine bind_fuel h fun _ s1 h1 => ?_
  refine bind_fuel h1 fun _ s2 h2 => ?_
  refine bind_fuel h2 fun t s3 h3 => ?_
  refine bind_fuel h3 fun st s4 h4 => ?_
  have h5 : ((nmLoop c (nmCoef c.adaptive n) (cfg.maxEvalTotal.toNat + 2)
      { nmSort c st with iterations := 1 }).interp (algHandler cfg env ops) s4).1 ≠ .error .outOfFuel := by
    intro he
    rw [Prog.bind_apply] at h4
    rcases hq : (nmLoop c (nmCoef c.adaptive n) (cfg.maxEvalTotal.toNat + 2)
      { nmSort c st with iterations := 1 }).interp (algHandler cfg env ops) s4 with ⟨e | a, s5⟩
    · rw [hq] at he h4
      cases he
      exact h4 rfl
    · rw [hq] at he; cases he
  rw [Prog.bind_apply, loop_fuel _ fuel hf _ _ h5, Prog.bind_apply]

end
end NM
end QuOCS

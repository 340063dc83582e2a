/-
The modelled Nelder-Mead search follows the published one.
-/
import Verif.Spec.NmReference
import Verif.Lemmas.NelderMead

set_option linter.unusedSectionVars false
set_option linter.unusedVariables false

namespace QuOCS
namespace NMR
open NM

variable {K F : Type} {n : ℕ} [Field K] [LinearOrder K] [Field F] [LinearOrder F] [IsStrictOrderedRing F]

/-- the factors as the model has them -/
def coefOf (p : NmRef.Factors K) : NmCoef K := ⟨p.reflection, p.expansion, p.contraction, p.shrinking⟩

/-- the vertices of a state -/
def vs (s : NmState K F n) : NmRef.Simplex K F n := fun i => (s.sim i, s.fsim i)

/-- what the evaluations of the search satisfy -/
def G2 (p : NmRef.Factors K) (start : Fin (n + 1) → Vec K n) (dm : Option ℕ) (h : List (Ev K (Vec K n) F)) : Op K (Vec K n) F → Prop
  | .eval x _ => NmRef.Asks p start dm (evals h) x
  | _ => True

variable {c : NmCfg K F n} {p : NmRef.Factors K} {start : Fin (n + 1) → Vec K n} {dm : Option ℕ} {m : ℤ}
  {h h' : List (Ev K (Vec K n) F)} {s s' : NmState K F n} {S : NmRef.Simplex K F n} {fs : List F}

theorem evals_snoc (x : Vec K n) (it : ℕ) (f : F) : evals (h ++ [(⟨.eval x it, f⟩ : Ev K (Vec K n) F)]) = evals h ++ [(x, f)] := by
  rw [evals_append]; rfl

theorem wp_eval2 {x : Vec K n} {Q : List (Ev K (Vec K n) F) → F × NmState K F n → Prop}
    (hG : NmRef.Asks p start dm (evals h) x)
    (hQ : ∀ f, Q (h ++ [⟨.eval x s.iterations, f⟩]) (f, { s with calls := s.calls + 1 })) :
    (nmEval x s).wp (G2 p start dm) (A m) Q h := by
  unfold nmEval
  rw [Strat.wp_bind, Strat.wp_call]
  exact ⟨hG, fun f _ => hQ f⟩

theorem wp_conv2 {α : Type} {Q : List (Ev K (Vec K n) F) → α → Prop} {t e : Strat K (Vec K n) F α}
    (ht : t.wp (G2 p start dm) (A m) Q (h ++ [⟨.readConv, true⟩]))
    (he : A m (h ++ [⟨.readConv, false⟩]) → e.wp (G2 p start dm) (A m) Q (h ++ [⟨.readConv, false⟩])) :
    (do if ← nmConv then t else e : Strat K (Vec K n) F α).wp (G2 p start dm) (A m) Q h := by
  unfold nmConv
  rw [Strat.wp_bind, Strat.wp_call]
  refine ⟨trivial, fun r hr => ?_⟩
  cases r
  · exact he hr
  · exact ht

/-- the search was stopped while it was shrinking -/
def Mid (p : NmRef.Factors K) (start : Fin (n + 1) → Vec K n) (dm : Option ℕ) (h : List (Ev K (Vec K n) F)) : Prop :=
  ∃ S fs x, NmRef.Reached p start dm (evals h) S fs ∧ 2 ≤ fs.length ∧ NmRef.rule p S fs = .evaluate x

/-- after a move -/
def MovePost (p : NmRef.Factors K) (start : Fin (n + 1) → Vec K n) (dm : Option ℕ) (m : ℤ) (S : NmRef.Simplex K F n)
    (h : List (Ev K (Vec K n) F)) (q : Bool × NmState K F n) : Prop :=
  ResetOnce h ∧
    (q.1 = true → ∃ fs, NmRef.Reached p start dm (evals h) S fs ∧ vs q.2 = S) ∧
    (q.1 = false → Triggered m h ∧ Mid p start dm h ∨
      ∃ fs, NmRef.Reached p start dm (evals h) S fs ∧ NmRef.rule p S fs = .finish (vs q.2))

theorem shrink_ref {fr f : F} (js : List (Fin (n + 1))) (k : ℕ) (hjs : js.map Fin.val = List.range' (k + 1) js.length)
    (hk : k + js.length = n) (hr : ResetOnce h) (hS : NmRef.Reached p start dm (evals h) S (fr :: f :: fs))
    (hrule : ∀ gs, NmRef.rule p S (fr :: f :: gs) = NmRef.shrinkStep p S gs) (hl : fs.length = k)
    (h0 : vs s 0 = S 0) (htodo : ∀ j : Fin (n + 1), k < (j : ℕ) → s.sim j = (S j).1)
    (hdone : ∀ j : Fin (n + 1), (j : ℕ) ≠ 0 → (j : ℕ) ≤ k → s.sim j = NmRef.shrunk p S j ∧ fs[(j : ℕ) - 1]? = some (s.fsim j)) :
    (nmShrink (coefOf p) js s).wp (G2 p start dm) (A m) (fun h' s' => ResetOnce h' ∧ (Triggered m h' ∧ Mid p start dm h' ∨
      ∃ fs, NmRef.Reached p start dm (evals h') S fs ∧ NmRef.rule p S fs = .finish (vs s'))) h := by
  induction js generalizing h s fs k with
  | nil =>
    refine (Strat.wp_pure _ _ _).2 ⟨hr, .inr ⟨_, hS, ?_⟩⟩
    have hkn : k = n := by simpa using hk
    rw [hrule, NmRef.shrinkStep, dif_neg (by omega)]
    congr 1
    funext i
    by_cases hi : (i : ℕ) = 0
    · have : i = 0 := Fin.ext hi
      subst this
      rw [dif_pos (by simp), h0]
    · rw [dif_neg hi]
      obtain ⟨h1, h2⟩ := hdone i hi (by have := i.2; omega)
      obtain ⟨h3, h4⟩ := List.getElem?_eq_some_iff.1 h2
      show _ = (s.sim i, s.fsim i)
      rw [h1, ← h4]
  | cons j js ih =>
    simp only [List.map_cons, List.length_cons, List.range'_succ, List.cons.injEq] at hjs hk
    obtain ⟨hj, hjs⟩ := hjs
    unfold nmShrink
    have hs0 : s.sim 0 = (S 0).1 := congrArg Prod.fst h0
    have hx : s.sim 0 + (coefOf p).sigma • (s.sim j - s.sim 0) = NmRef.shrunk p S j := by
      rw [hs0, htodo j (by omega)]; rfl
    have hj0 : j ≠ 0 := fun e => by rw [e] at hj; simp at hj
    dsimp only
    rw [hx]
    have hask : NmRef.rule p S (fr :: f :: fs) = .evaluate (NmRef.shrunk p S j) := by
      rw [hrule, NmRef.shrinkStep, dif_pos (by omega)]
      congr 2
      exact Fin.ext (by show fs.length + 1 = (j : ℕ); omega)
    refine wp_conv2 ((Strat.wp_pure _ _ _).2 ⟨hr.snoc (fun b => by simp), .inl ⟨triggered_true h, S, fr :: f :: fs, _, ?_, ?_, hask⟩⟩) fun hA => ?_
    · rw [(Same.readConv true).evals]; exact hS
    · simp
    · rw [Strat.wp_bind]
      have hS' : NmRef.Reached p start dm (evals (h ++ [(⟨.readConv, false⟩ : Ev K (Vec K n) F)])) S (fr :: f :: fs) := by
        rw [(Same.readConv false).evals]; exact hS
      refine wp_eval2 (.rule S _ hS' hask) fun g => ?_
      refine ih (fs := fs ++ [g]) (k + 1) hjs (by omega) ((hr.snoc (fun b => by simp)).snoc (fun b => by simp)) ?_ (by simp [hl]) ?_ ?_ ?_
      · rw [evals_snoc]
        exact NmRef.Reached.evaluate g hS' hask
      · show (Function.update s.sim j _ 0, Function.update s.fsim j g 0) = _
        rw [Function.update_of_ne hj0.symm, Function.update_of_ne hj0.symm]
        exact h0
      · intro i hi
        show Function.update s.sim j _ i = _
        have : i ≠ j := fun e => by rw [e] at hi; omega
        rw [Function.update_of_ne this]
        exact htodo i (by omega)
      · intro i hi0 hi
        show Function.update s.sim j _ i = _ ∧ _ = some (Function.update s.fsim j g i)
        by_cases e : i = j
        · subst e
          rw [Function.update_self, Function.update_self]
          refine ⟨rfl, ?_⟩
          rw [hj, Nat.add_sub_cancel, ← hl]
          simp
        · have : (i : ℕ) ≠ j := fun e' => e (Fin.ext e')
          rw [Function.update_of_ne e, Function.update_of_ne e]
          obtain ⟨a, b⟩ := hdone i hi0 (by omega)
          refine ⟨a, ?_⟩
          rw [List.getElem?_append_left (by omega)]
          exact b

theorem shrinkRows_val (n : ℕ) : (shrinkRows n).map Fin.val = List.range' 1 (shrinkRows n).length := by
  rw [shrinkRows_length, shrinkRows, List.map_map]
  refine List.ext_getElem (by simp) fun i h1 h2 => ?_
  simp [Nat.add_comm]

theorem replace_ref (x : Vec K n) (f : F) (hs : vs s = S) : vs (nmReplace x f s) = NmRef.replaceWorst S x f := by
  subst hs
  funext i
  unfold vs nmReplace NmRef.replaceWorst
  by_cases hi : i = Fin.last n
  · subst hi; simp
  · simp [hi]

theorem beyond_eq (t : K) (hs : vs s = S) : (1 + t) • nmBar s.sim - t • s.sim (Fin.last n) = NmRef.beyond S t := by
  subst hs
  rw [expand_eq, nmBar_eq]; rfl

theorem inside_ref (t : K) (hs : vs s = S) : (1 - t) • nmBar s.sim + t • s.sim (Fin.last n) = NmRef.beyond S (-t) := by
  rw [← beyond_eq (-t) hs]; module

/-- shrinking after a failed contraction -/
theorem shrinkAll_ref {fr f : F} (hr : ResetOnce h) (hS : NmRef.Reached p start dm (evals h) S [fr, f])
    (hrule : ∀ gs, NmRef.rule p S (fr :: f :: gs) = NmRef.shrinkStep p S gs) (hs : vs s = S) :
    (nmShrink (coefOf p) (shrinkRows n) s >>= fun s => pure (false, s)).wp (G2 p start dm) (A m) (MovePost p start dm m S) h := by
  rw [Strat.wp_bind]
  refine Strat.wp_mono (shrink_ref (fs := []) (shrinkRows n) 0 (shrinkRows_val n) (by rw [shrinkRows_length, Nat.zero_add]) hr hS hrule rfl
    (congrFun hs 0) (fun j _ => by rw [← hs]; rfl) (fun j h0 hj => absurd (Nat.le_zero.1 hj) h0)) ?_
  rintro h' s' ⟨hr', hp⟩
  exact (Strat.wp_pure _ _ _).2 ⟨hr', (fun e => by cases e), fun _ => hp⟩

theorem expand_ref {fr : F} (hr : ResetOnce h) (hS : NmRef.Reached p start dm (evals h) S [fr]) (hs : vs s = S)
    (hlt : fr < NmRef.best S) :
    (nmExpand (coefOf p) (nmBar s.sim) (NmRef.reflected p S) fr s).wp (G2 p start dm) (A m) (MovePost p start dm m S) h := by
  unfold nmExpand
  have hx : (1 + (coefOf p).rho * (coefOf p).chi) • nmBar s.sim - ((coefOf p).rho * (coefOf p).chi) • s.sim (Fin.last n) =
      NmRef.expanded p S := beyond_eq _ hs
  dsimp only
  rw [hx]
  refine wp_conv2 ((Strat.wp_pure _ _ _).2 ⟨hr.snoc (fun b => by simp), fun _ => ⟨[fr], ?_, hs⟩, fun e => by cases e⟩) fun _ => ?_
  · rw [(Same.readConv true).evals]; exact hS
  · have hS' : NmRef.Reached p start dm (evals (h ++ [(⟨.readConv, false⟩ : Ev K (Vec K n) F)])) S [fr] := by
      rw [(Same.readConv false).evals]; exact hS
    have hask : NmRef.rule p S [fr] = .evaluate (NmRef.expanded p S) := by
      simp only [NmRef.rule]; rw [if_pos hlt]
    rw [Strat.wp_bind]
    refine wp_eval2 (.rule S _ hS' hask) fun f => ?_
    have hS2 : NmRef.Reached p start dm (evals (h ++ [(⟨.readConv, false⟩ : Ev K (Vec K n) F)] ++
        [⟨.eval (NmRef.expanded p S) s.iterations, f⟩])) S [fr, f] := by
      rw [evals_snoc]; exact .evaluate f hS' hask
    have hr2 := (hr.snoc (e := ⟨.readConv, false⟩) (fun b => by simp)).snoc
      (e := (⟨.eval (NmRef.expanded p S) s.iterations, f⟩ : Ev K (Vec K n) F)) (fun b => by simp)
    dsimp only
    by_cases hf : f < fr
    · rw [if_pos hf]
      refine (Strat.wp_pure _ _ _).2 ⟨hr2, (fun e => by cases e), fun _ => .inr ⟨_, hS2, ?_⟩⟩
      simp only [NmRef.rule]
      rw [if_pos hlt, if_pos hf]
      exact congrArg _ (replace_ref (s := { s with calls := s.calls + 1 }) _ _ hs).symm
    · rw [if_neg hf]
      refine (Strat.wp_pure _ _ _).2 ⟨hr2, (fun e => by cases e), fun _ => .inr ⟨_, hS2, ?_⟩⟩
      simp only [NmRef.rule]
      rw [if_pos hlt, if_neg hf]
      exact congrArg _ (replace_ref (s := { s with calls := s.calls + 1 }) _ _ hs).symm

theorem outside_ref {fr : F} (hr : ResetOnce h) (hS : NmRef.Reached p start dm (evals h) S [fr]) (hs : vs s = S)
    (h1 : ¬ fr < NmRef.best S) (h2 : ¬ fr < NmRef.secondWorst S) (h3 : fr < NmRef.worst S) :
    (nmOutside (coefOf p) (nmBar s.sim) fr s).wp (G2 p start dm) (A m) (MovePost p start dm m S) h := by
  unfold nmOutside
  have hx : (1 + (coefOf p).psi * (coefOf p).rho) • nmBar s.sim - ((coefOf p).psi * (coefOf p).rho) • s.sim (Fin.last n) =
      NmRef.outside p S := by
    rw [beyond_eq _ hs, mul_comm]; rfl
  dsimp only
  rw [hx]
  refine wp_conv2 ((Strat.wp_pure _ _ _).2 ⟨hr.snoc (fun b => by simp), fun _ => ⟨[fr], ?_, hs⟩, fun e => by cases e⟩) fun _ => ?_
  · rw [(Same.readConv true).evals]; exact hS
  · have hS' : NmRef.Reached p start dm (evals (h ++ [(⟨.readConv, false⟩ : Ev K (Vec K n) F)])) S [fr] := by
      rw [(Same.readConv false).evals]; exact hS
    have hask : NmRef.rule p S [fr] = .evaluate (NmRef.outside p S) := by
      simp only [NmRef.rule]; rw [if_neg h1, if_neg h2, if_pos h3]
    rw [Strat.wp_bind]
    refine wp_eval2 (.rule S _ hS' hask) fun f => ?_
    have hS2 : NmRef.Reached p start dm (evals (h ++ [(⟨.readConv, false⟩ : Ev K (Vec K n) F)] ++
        [⟨.eval (NmRef.outside p S) s.iterations, f⟩])) S [fr, f] := by
      rw [evals_snoc]; exact .evaluate f hS' hask
    have hr2 := (hr.snoc (e := ⟨.readConv, false⟩) (fun b => by simp)).snoc
      (e := (⟨.eval (NmRef.outside p S) s.iterations, f⟩ : Ev K (Vec K n) F)) (fun b => by simp)
    dsimp only
    by_cases hf : f ≤ fr
    · rw [if_pos hf]
      refine (Strat.wp_pure _ _ _).2 ⟨hr2, (fun e => by cases e), fun _ => .inr ⟨_, hS2, ?_⟩⟩
      simp only [NmRef.rule]
      rw [if_neg h1, if_pos h3, if_pos hf]
      exact congrArg _ (replace_ref (s := { s with calls := s.calls + 1 }) _ _ hs).symm
    · rw [if_neg hf]
      exact shrinkAll_ref hr2 hS2 (fun gs => by simp only [NmRef.rule]; rw [if_neg h1, if_pos h3, if_neg hf]) hs

theorem inside_move {fr : F} (hr : ResetOnce h) (hS : NmRef.Reached p start dm (evals h) S [fr]) (hs : vs s = S)
    (h1 : ¬ fr < NmRef.best S) (h2 : ¬ fr < NmRef.secondWorst S) (h3 : ¬ fr < NmRef.worst S) :
    (nmInside (coefOf p) (nmBar s.sim) s).wp (G2 p start dm) (A m) (MovePost p start dm m S) h := by
  unfold nmInside
  have hx : (1 - (coefOf p).psi) • nmBar s.sim + (coefOf p).psi • s.sim (Fin.last n) = NmRef.inside p S := inside_ref _ hs
  dsimp only
  rw [hx]
  refine wp_conv2 ((Strat.wp_pure _ _ _).2 ⟨hr.snoc (fun b => by simp), fun _ => ⟨[fr], ?_, hs⟩, fun e => by cases e⟩) fun _ => ?_
  · rw [(Same.readConv true).evals]; exact hS
  · have hS' : NmRef.Reached p start dm (evals (h ++ [(⟨.readConv, false⟩ : Ev K (Vec K n) F)])) S [fr] := by
      rw [(Same.readConv false).evals]; exact hS
    have hask : NmRef.rule p S [fr] = .evaluate (NmRef.inside p S) := by
      simp only [NmRef.rule]; rw [if_neg h1, if_neg h2, if_neg h3]
    rw [Strat.wp_bind]
    refine wp_eval2 (.rule S _ hS' hask) fun f => ?_
    have hS2 : NmRef.Reached p start dm (evals (h ++ [(⟨.readConv, false⟩ : Ev K (Vec K n) F)] ++
        [⟨.eval (NmRef.inside p S) s.iterations, f⟩])) S [fr, f] := by
      rw [evals_snoc]; exact .evaluate f hS' hask
    have hr2 := (hr.snoc (e := ⟨.readConv, false⟩) (fun b => by simp)).snoc
      (e := (⟨.eval (NmRef.inside p S) s.iterations, f⟩ : Ev K (Vec K n) F)) (fun b => by simp)
    have hw : s.fsim (Fin.last n) = NmRef.worst S := by rw [← hs]; rfl
    dsimp only
    rw [hw]
    by_cases hf : f < NmRef.worst S
    · rw [if_pos hf]
      refine (Strat.wp_pure _ _ _).2 ⟨hr2, (fun e => by cases e), fun _ => .inr ⟨_, hS2, ?_⟩⟩
      simp only [NmRef.rule]
      rw [if_neg h1, if_neg h3, if_pos hf]
      exact congrArg _ (replace_ref (s := { s with calls := s.calls + 1 }) _ _ hs).symm
    · rw [if_neg hf]
      exact shrinkAll_ref hr2 hS2 (fun gs => by simp only [NmRef.rule]; rw [if_neg h1, if_neg h3, if_neg hf]) hs

theorem contract_ref {fr : F} (hr : ResetOnce h) (hS : NmRef.Reached p start dm (evals h) S [fr]) (hs : vs s = S)
    (h1 : ¬ fr < NmRef.best S) :
    (nmContract (coefOf p) (nmBar s.sim) (NmRef.reflected p S) fr s).wp (G2 p start dm) (A m) (MovePost p start dm m S) h := by
  unfold nmContract
  rcases n with _ | n
  · exact ⟨trivial, fun r => nomatch r⟩
  · have e2 : secondWorst s.fsim = .ok (NmRef.secondWorst S) := by
      rw [← hs]; rfl
    have e3 : s.fsim (Fin.last _) = NmRef.worst S := by rw [← hs]; rfl
    rw [e2]
    show Strat.wp _ _ (ite _ _ _) _ _
    rw [e3]
    by_cases h2 : fr < NmRef.secondWorst S
    · rw [if_pos h2]
      refine (Strat.wp_pure _ _ _).2 ⟨hr, (fun e => by cases e), fun _ => .inr ⟨_, hS, ?_⟩⟩
      simp only [NmRef.rule]
      rw [if_neg h1, if_pos h2]
      exact congrArg _ (replace_ref _ _ hs).symm
    · rw [if_neg h2]
      by_cases h3 : fr < NmRef.worst S
      · rw [if_pos h3]; exact outside_ref hr hS hs h1 h2 h3
      · rw [if_neg h3]; exact inside_move hr hS hs h1 h2 h3

theorem move_ref (hr : ResetOnce h) (hS : NmRef.Reached p start dm (evals h) S []) (hs : vs s = S) :
    (nmMove (coefOf p) s).wp (G2 p start dm) (A m) (MovePost p start dm m S) h := by
  unfold nmMove
  have hx : (1 + (coefOf p).rho) • nmBar s.sim - (coefOf p).rho • s.sim (Fin.last n) = NmRef.reflected p S := beyond_eq _ hs
  dsimp only
  rw [hx, Strat.wp_bind]
  refine wp_eval2 (.rule S _ hS rfl) fun f => ?_
  have hS2 : NmRef.Reached p start dm (evals (h ++ [(⟨.eval (NmRef.reflected p S) s.iterations, f⟩ : Ev K (Vec K n) F)])) S [f] := by
    rw [evals_snoc]; exact .evaluate f hS rfl
  have hr2 := hr.snoc (e := (⟨.eval (NmRef.reflected p S) s.iterations, f⟩ : Ev K (Vec K n) F)) (fun b => by simp)
  have e0 : s.fsim 0 = NmRef.best S := by rw [← hs]; rfl
  dsimp only
  rw [e0]
  by_cases hlt : f < NmRef.best S
  · rw [if_pos hlt]; exact expand_ref (s := { s with calls := s.calls + 1 }) hr2 hS2 hs hlt
  · rw [if_neg hlt]; exact contract_ref (s := { s with calls := s.calls + 1 }) hr2 hS2 hs hlt

/-- between two iterations -/
def Head (p : NmRef.Factors K) (start : Fin (n + 1) → Vec K n) (dm : Option ℕ) (m : ℤ) (h : List (Ev K (Vec K n) F))
    (s : NmState K F n) : Prop :=
  ResetOnce h ∧ (NmRef.Reached p start dm (evals h) (vs s) [] ∨ Triggered m h ∧ Mid p start dm h)

theorem Head.same (hd : Head p start dm m h s) (sm : Same h h') (hv : vs s' = vs s) : Head p start dm m h' s' := by
  refine ⟨sm.reset hd.1, hd.2.imp (fun a => by rw [sm.evals, hv]; exact a) fun ⟨a, b⟩ => ⟨sm.trig _ a, ?_⟩⟩
  unfold Mid
  rw [sm.evals]; exact b

theorem sort_ref (ha : IsArgsort c.argsort) : NmRef.SortedOf (vs s) (vs (nmSort c s)) :=
  ⟨⟨c.argsort s.fsim, fun i => rfl⟩, fun i j hij => ha s.fsim hij⟩

theorem sum_ref {l0 : List (NmRef.Vertex K F n)} {k : ℕ} (j : ℕ) (ms : List F) (acc : F) (hr : ResetOnce h)
    (h0 : NmRef.Reached p start dm l0 S []) (he : evals h = l0 ++ ms.map fun f => ((S 0).1, f)) (hm : dm = some k)
    (hj : ms.length + j = k) (hacc : acc = ms.sum) (hs : vs s = S) :
    (nmSum j acc s).wp (G2 p start dm) (A m) (fun h' q => ResetOnce h' ∧ vs q.2 = S ∧ ∃ ms : List F, ms.length = k ∧ q.1 = ms.sum ∧
      evals h' = l0 ++ ms.map fun f => ((S 0).1, f)) h := by
  induction j generalizing h s ms acc with
  | zero => exact (Strat.wp_pure _ _ _).2 ⟨hr, hs, ms, by omega, hacc, he⟩
  | succ j ih =>
    unfold nmSum
    rw [Strat.wp_bind]
    have hx : s.sim 0 = (S 0).1 := by rw [← hs]; rfl
    refine wp_eval2 (.drift l0 S ms k h0 he ⟨hm, by omega⟩ hx) fun f => ?_
    refine ih (ms ++ [f]) (acc + f) (hr.snoc (fun b => by simp)) ?_ (by simp; omega) (by rw [hacc]; simp) hs
    rw [evals_snoc, he, hx]
    simp

theorem drift_ref (hm : 0 < c.driftMinutes → dm = some c.driftAverage) (hd : Head p start dm m h s) :
    (nmDrift c s).wp (G2 p start dm) (A m) (Head p start dm m) h := by
  unfold nmDrift
  split
  swap
  · exact (Strat.wp_pure _ _ _).2 hd
  rename_i hpos
  refine wp_conv2 ((Strat.wp_pure _ _ _).2 (hd.same (.readConv true) rfl)) fun hA => ?_
  have hS : NmRef.Reached p start dm (evals h) (vs s) [] := hd.2.resolve_right fun ht => by cases hA.conv hd.1 ht.1
  rw [Strat.wp_bind, Strat.wp_call]
  refine ⟨trivial, fun t _ => ?_⟩
  have sm : Same h (h ++ [⟨.readConv, false⟩] ++ [⟨.now, t⟩]) := (Same.readConv false).trans (.snoc rfl rfl (fun b => by simp))
  split
  swap
  · exact (Strat.wp_pure _ _ _).2 (hd.same sm rfl)
  unfold nmDriftDo
  dsimp only
  rw [Strat.wp_bind]
  refine Strat.wp_mono (sum_ref (S := vs s) (l0 := evals h) (k := c.driftAverage) c.driftAverage [] 0 (sm.reset hd.1) hS
    (by rw [sm.evals]; simp) (hm hpos) (by simp) rfl rfl) ?_
  rintro h1 ⟨f, s1⟩ ⟨hr1, hs1, ms, hl, hf, he⟩
  dsimp only at hs1 hf ⊢
  split
  · exact (Strat.wp_fail _ _ _).2 trivial
  rename_i hne
  rw [Strat.wp_bind, Strat.wp_call]
  refine ⟨trivial, fun t1 _ => ?_⟩
  rw [Strat.wp_bind, Strat.wp_call]
  refine ⟨trivial, fun r _ => (Strat.wp_pure _ _ _).2 ?_⟩
  refine ⟨(hr1.snoc (fun b => by simp)).snoc (fun b => by simp), .inl ?_⟩
  have e1 : evals (h1 ++ [(⟨.now, t1⟩ : Ev K (Vec K n) F)] ++ [⟨.drift (s1.sim 0) s1.iterations (f / (c.driftAverage : F)), r⟩]) = evals h1 := by
    rw [evals_append, evals_append]; simp [evals, Ev.evaluated]
  rw [e1, he]
  have hsim : s1.sim = s.sim := funext fun i => congrArg Prod.fst (congrFun hs1 i)
  have hfsim : s1.fsim = s.fsim := funext fun i => congrArg Prod.snd (congrFun hs1 i)
  have e2 : ∀ q : NmState K F n, q.sim = s1.sim →
      (q.fsim = fun i => if i = 0 then f / (c.driftAverage : F) else s1.fsim i + (f / (c.driftAverage : F) - s.fsim 0)) →
      vs q = NmRef.corrected (vs s) ms := by
    intro q h1 h2
    funext i
    unfold vs NmRef.corrected
    rw [h1, h2, hsim, hfsim, hf, ← hl]
    by_cases hi : i = 0
    · subst hi; simp
    · simp [hi]
  rw [e2 { s1 with
    fsim := fun i => if i = 0 then f / (c.driftAverage : F) else s1.fsim i + (f / (c.driftAverage : F) - s.fsim 0)
    calls := s1.calls + 1, lastDrift := t1 } rfl rfl]
  exact .drift hS (by rw [hm hpos, hl])

theorem finish_ref (hd : Head p start dm m h s) : (nmFinish s).wp (G2 p start dm) (A m) (Head p start dm m) h := by
  unfold nmFinish
  dsimp only
  rw [Strat.wp_bind, Strat.wp_call]
  refine ⟨trivial, fun b _ => ?_⟩
  have key : ∀ h', Same h h' → (do
      Strat.call (.checkNM (simplexSize s.sim) (List.ofFn s.fsim) s.calls)
      pure { s with iterations := s.iterations + 1 } : Strat K (Vec K n) F (NmState K F n)).wp (G2 p start dm) (A m)
        (Head p start dm m) h' := by
    intro h' sm
    rw [Strat.wp_bind, Strat.wp_call]
    exact ⟨trivial, fun u _ => (Strat.wp_pure _ _ _).2 (hd.same (sm.trans (.snoc rfl rfl (fun b => by simp))) rfl)⟩
  cases b
  · simp only [Bool.false_eq_true, if_false]
    rw [Strat.wp_bind, Strat.wp_call]
    exact ⟨trivial, fun u _ => key _ ((Same.snoc rfl rfl (fun b => by simp)).trans (.snoc rfl rfl (fun b => by simp)))⟩
  · simp only [if_true]
    exact key _ (.snoc rfl rfl (fun b => by simp))

/-- at the end -/
def LoopPost (p : NmRef.Factors K) (start : Fin (n + 1) → Vec K n) (dm : Option ℕ) (h : List (Ev K (Vec K n) F))
    (s : NmState K F n) : Prop :=
  ∃ S fs, NmRef.Reached p start dm (evals h) S fs ∧ (vs s 0 = S 0 ∨ 2 ≤ fs.length ∧ ∃ x, NmRef.rule p S fs = .evaluate x)

theorem Head.post (hd : Head p start dm m h s) : LoopPost p start dm h s := by
  rcases hd.2 with h | ⟨-, S, fs, x, h1, h2, h3⟩
  · exact ⟨_, _, h, .inl rfl⟩
  · exact ⟨S, fs, h1, .inr ⟨h2, x, h3⟩⟩

theorem loop_ref (ha : IsArgsort c.argsort) (hm : 0 < c.driftMinutes → dm = some c.driftAverage) (fuel : ℕ)
    (hd : Head p start dm m h s) : (nmLoop c (coefOf p) fuel s).wp (G2 p start dm) (A m) (LoopPost p start dm) h := by
  induction fuel generalizing h s with
  | zero => exact (Strat.wp_fail _ _ _).2 trivial
  | succ fuel ih =>
    unfold nmLoop
    refine wp_conv2 ((Strat.wp_pure _ _ _).2 (hd.same (.readConv true) rfl).post) fun hA => ?_
    have hS : NmRef.Reached p start dm (evals h) (vs s) [] := hd.2.resolve_right fun ht => by cases hA.conv hd.1 ht.1
    rw [Strat.wp_bind]
    refine Strat.wp_mono (move_ref (S := vs s) (hd.1.snoc (fun b => by simp)) (by rw [(Same.readConv false).evals]; exact hS) rfl) ?_
    rintro h1 ⟨brk, s1⟩ ⟨hr1, hb, hc⟩
    cases brk
    · simp only [Bool.false_eq_true, if_false]
      rw [Strat.wp_bind]
      have hd1 : Head p start dm m h1 (nmSort c s1) := by
        refine ⟨hr1, ?_⟩
        rcases hc rfl with ht | ⟨fs, h2, h3⟩
        · exact .inr ht
        · exact .inl (.finish h2 h3 (sort_ref ha))
      refine Strat.wp_mono (drift_ref hm hd1) fun h2 s2 hd2 => ?_
      rw [Strat.wp_bind]
      exact Strat.wp_mono (finish_ref hd2) fun h3 s3 hd3 => ih hd3
    · simp only [if_true]
      obtain ⟨fs, h2, h3⟩ := hb rfl
      exact (Strat.wp_pure _ _ _).2 ⟨_, _, h2, .inl (congrFun h3 0)⟩

theorem init_ref (ks done : List (Fin (n + 1))) (hks : List.finRange (n + 1) = done ++ ks) (hr : ResetOnce h)
    (hs : s.sim = start) (he : evals h = done.map fun i => (start i, s.fsim i)) :
    (nmInit ks s).wp (G2 p start dm) (A m) (fun h' s' => ResetOnce h' ∧ s'.sim = start ∧
      evals h' = List.ofFn fun i => (start i, s'.fsim i)) h := by
  induction ks generalizing h s done with
  | nil =>
    refine (Strat.wp_pure _ _ _).2 ⟨hr, hs, ?_⟩
    rw [he, List.ofFn_eq_map, hks, List.append_nil]
  | cons k ks ih =>
    unfold nmInit
    rw [Strat.wp_bind]
    have hlen : (k : ℕ) = done.length := by
      have h1 : (List.finRange (n + 1))[done.length]? = some k := by rw [hks]; simp
      obtain ⟨h2, h3⟩ := List.getElem?_eq_some_iff.1 h1
      rw [← h3]; simp
    have hnd : k ∉ done := by
      have := List.nodup_finRange (n + 1)
      rw [hks] at this
      exact fun hk => (List.nodup_append.1 this).2.2 k hk k (by simp) rfl
    refine wp_eval2 (.start k s.fsim ?_ (by rw [hs])) fun f => ?_
    · rw [List.ofFn_eq_map, hks, List.map_append, hlen, List.take_left' (by simp), he]
    · refine ih (done ++ [k]) (by simp [hks]) (hr.snoc (fun b => by simp)) hs ?_
      rw [evals_snoc, he, hs, List.map_append]
      congr 1
      · refine List.map_congr_left fun i hi => ?_
        show (start i, s.fsim i) = (start i, Function.update s.fsim k f i)
        rw [Function.update_of_ne (fun e : i = k => hnd (e ▸ hi))]
      · simp

theorem run_ref (ha : IsArgsort c.argsort) (hm : 0 < c.driftMinutes → dm = some c.driftAverage) (fuel : ℕ)
    (hp : nmCoef c.adaptive n = coefOf p) :
    (nmRun c fuel start).wp (G2 p start dm) (A m) (fun h r =>
      ∃ S fs, NmRef.Reached p start dm (evals h) S fs ∧ ((r.xOpt, r.fMin) = S 0 ∨ 2 ≤ fs.length ∧ ∃ x, NmRef.rule p S fs = .evaluate x)) [] := by
  unfold nmRun
  rw [Strat.wp_bind, Strat.wp_call]
  refine ⟨trivial, fun u _ => ?_⟩
  rw [Strat.wp_bind, Strat.wp_call]
  refine ⟨trivial, fun t0 _ => ?_⟩
  rw [Strat.wp_bind, Strat.wp_call]
  refine ⟨trivial, fun t _ => ?_⟩
  rw [Strat.wp_bind]
  have h0 : ResetOnce ([] ++ [(⟨.setConv false, u⟩ : Ev K (Vec K n) F)] ++ [⟨.now, t0⟩] ++ [⟨.now, t⟩]) :=
    ⟨[⟨.now, t0⟩, ⟨.now, t⟩], rfl, fun b => by simp⟩
  refine Strat.wp_mono (init_ref (start := start) (List.finRange (n + 1)) [] rfl h0 rfl rfl) ?_
  rintro h1 s1 ⟨hr1, hs1, he1⟩
  rw [Strat.wp_bind, hp]
  refine Strat.wp_mono (loop_ref ha hm fuel (s := { nmSort c s1 with iterations := 1 }) ⟨hr1, .inl ?_⟩) ?_
  · rw [he1]
    refine .start ?_
    have := sort_ref (s := s1) ha
    rw [show vs s1 = fun i => (start i, s1.fsim i) by rw [← hs1]; rfl] at this
    exact this
  · rintro h2 s2 ⟨S, fs, h3, h4⟩
    rw [Strat.wp_bind, Strat.wp_call]
    refine ⟨trivial, fun r _ => (Strat.wp_pure _ _ _).2 ⟨S, fs, ?_, h4⟩⟩
    rw [evals_append, show evals [(⟨.reason, r⟩ : Ev K (Vec K n) F)] = [] from rfl, List.append_nil]
    exact h3

end NMR
end QuOCS

/-
The calls and the result of a CMA-ES search.
-/
import Mathlib.Data.List.FinRange
import Verif.Lemmas.Strat
import Verif.Lemmas.NmStop
import Verif.Spec.CMAES

set_option linter.unusedSectionVars false
set_option linter.unusedVariables false

namespace QuOCS
namespace CMA

variable {K F : Type} {n L : ℕ} [Field K] [LinearOrder K]

section
variable [Zero F] [LinearOrder F]
variable {lib : CmaLib K F} {x0 : Vec K n} {m : ℤ} {h : List (Ev K (Vec K n) F)} {s : CmaState K F n L}

/-- the values given to the criteria are the sorted values of the last generation -/
def Values (L : ℕ) (h : List (Ev K (Vec K n) F)) (fs : List F) : Prop :=
  fs.Pairwise (· ≤ ·) ∧ fs.Perm ((lastEvals L h).map Prod.snd)

/-- what is true of the calls -/
def G (m : ℤ) (L : ℕ) (x0 : Vec K n) (h : List (Ev K (Vec K n) F)) : Op K (Vec K n) F → Prop
  | .eval x it => (evals h = [] → x = x0) ∧ it = (evals h).length / L + 1 ∧
      (objectiveCalls h : ℤ) < max (m - 1) 0 + L
  | .checkCMA fs calls => calls = objectiveCalls h ∧ L ∣ calls ∧ L ≤ calls ∧ Values L h fs
  | .drift _ _ _ => False
  | _ => True

/-- the criteria do their job -/
def A (m : ℤ) (h : List (Ev K (Vec K n) F)) : Prop := StopLaws m h

/-- the last generation is in the arrays -/
def Gen (lib : CmaLib K F) (h : List (Ev K (Vec K n) F)) (s : CmaState K F n L) : Prop :=
  ∃ (base : List (Vec K n × F)) (f0 : Fin L → F), evals h = base ++ (List.finRange L).map (fun k => (s.arx k, f0 k)) ∧
    s.fsim = f0 ∘ lib.argsort f0 ∧ s.ind = lib.argsort f0

/-- at the head of the loop -/
structure Head (lib : CmaLib K F) (m : ℤ) (x0 : Vec K n) (h : List (Ev K (Vec K n) F)) (s : CmaState K F n L) : Prop where
  reset : ResetOnce h
  calls : s.calls = objectiveCalls h
  evals : objectiveCalls h = (evals h).length
  count : s.counteval = (QuOCS.evals h).length
  gens : ∃ g, s.iterations = g + 1 ∧ (QuOCS.evals h).length = L * g ∧ (0 < g → Gen lib h s)
  first : QuOCS.evals h = [] → s.xmean = x0
  zero : QuOCS.evals h = [] → (∀ i, s.fsim i = 0) ∧ ∀ i, s.arx i = 0
  bound : (objectiveCalls h : ℤ) ≤ max (m - 1) 0 + L
  trig : Triggered m h ∨ (objectiveCalls h : ℤ) ≤ max (m - 1) 0

/-- during the sampling of a generation -/
structure Samp (m : ℤ) (x0 : Vec K n) (base : List (Vec K n × F)) (g : ℕ) (done : List (Fin L))
    (h : List (Ev K (Vec K n) F)) (s : CmaState K F n L) : Prop where
  reset : ResetOnce h
  calls : s.calls = objectiveCalls h
  evals : objectiveCalls h = (evals h).length
  count : s.counteval = (QuOCS.evals h).length
  iter : s.iterations = g + 1
  baselen : base.length = L * g
  small : (base.length : ℤ) ≤ max (m - 1) 0
  now : QuOCS.evals h = base ++ done.map (fun k => (s.arx k, s.fsim k))
  first : QuOCS.evals h = [] → s.xmean = x0

theorem sample_wp {base : List (Vec K n × F)} {g : ℕ} (ks done : List (Fin L)) (hd : List.finRange L = done ++ ks)
    (hs : Samp m x0 base g done h s) :
    (cmaSample lib ks s).wp (G m L x0) (A m) (fun h' s' => Samp m x0 base g (List.finRange L) h' s') h := by
  induction ks generalizing h s done with
  | nil => rw [List.append_nil] at hd; subst hd; exact hs
  | cons k ks ih =>
    have hlen : done.length < L := by
      have := congrArg List.length hd
      simp only [List.length_finRange, List.length_append, List.length_cons] at this
      omega
    have he : (QuOCS.evals h).length = L * g + done.length := by rw [hs.now, List.length_append, hs.baselen, List.length_map]
    unfold cmaSample
    rw [Strat.wp_bind, Strat.wp_call]
    refine ⟨⟨fun h0 => ?_, ?_, ?_⟩, fun f _ => ?_⟩
    · rw [if_pos (by rw [hs.count, h0]; rfl), hs.first h0]
    · rw [hs.iter, he, Nat.mul_add_div (by omega), Nat.div_eq_of_lt hlen]
    · rw [hs.evals, he]
      have := hs.small
      rw [hs.baselen] at this
      push_cast at this ⊢
      omega
    · refine ih (done ++ [k]) (by rw [hd]; simp) ⟨hs.reset.snoc (fun b => by simp), ?_, ?_, ?_, hs.iter, hs.baselen,
        hs.small, ?_, ?_⟩
      · rw [objectiveCalls_append]; simp [hs.calls]
      · rw [objectiveCalls_append, evals_append]; simp [hs.evals]
      · rw [evals_append]; simp [hs.count]
      · have hk : k ∉ done := by
          have := List.nodup_finRange L
          rw [hd] at this
          exact fun hm => (List.nodup_append.1 this).2.2 k hm k (by simp) rfl
        rw [evals_append, hs.now, List.map_append, List.append_assoc]
        congr 1
        rw [List.map_cons, List.map_nil]
        dsimp only
        rw [Function.update_self, Function.update_self]
        congr 1
        refine List.map_congr_left fun j hj => ?_
        have hjk : j ≠ k := fun hh => hk (hh ▸ hj)
        rw [Function.update_of_ne hjk, Function.update_of_ne hjk]
      · rw [evals_append]
        intro h0
        simp at h0

theorem update_fields : (cmaUpdate lib s).arx = s.arx ∧ (cmaUpdate lib s).fsim = s.fsim ∧ (cmaUpdate lib s).ind = s.ind ∧
    (cmaUpdate lib s).counteval = s.counteval ∧ (cmaUpdate lib s).iterations = s.iterations ∧
    (cmaUpdate lib s).calls = s.calls := by
  unfold cmaUpdate
  dsimp only
  split <;> exact ⟨rfl, rfl, rfl, rfl, rfl, rfl⟩

theorem ofFn_pairwise {f : Fin L → F} (hf : Monotone f) : (List.ofFn f).Pairwise (· ≤ ·) := by
  rw [List.pairwise_ofFn]
  exact fun i j hij => hf hij.le

theorem Values.of (hsort : lib.Sorts) {base : List (Vec K n × F)} {f0 : Fin L → F} {arx : Fin L → Vec K n}
    (he : evals h = base ++ (List.finRange L).map (fun k => (arx k, f0 k))) :
    Values L h (List.ofFn (f0 ∘ lib.argsort f0)) := by
  refine ⟨ofFn_pairwise (hsort L f0), ?_⟩
  have hl : lastEvals L h = (List.finRange L).map (fun k => (arx k, f0 k)) := by
    unfold lastEvals
    rw [he, List.length_append, List.length_map, List.length_finRange, Nat.add_sub_cancel]
    simp
  rw [hl, List.map_map]
  have h1 : List.map (Prod.snd ∘ fun k => (arx k, f0 k)) (List.finRange L) = List.ofFn f0 := by
    rw [List.ofFn_eq_map]; rfl
  rw [h1]
  exact Equiv.Perm.ofFn_comp_perm (lib.argsort f0) f0

theorem finish_wp {base : List (Vec K n × F)} {g : ℕ} (hL : 0 < L) (hsort : lib.Sorts)
    (hs : Samp m x0 base g (List.finRange L) h s) :
    (cmaFinish (cmaUpdate lib (cmaSort lib s))).wp (G m L x0) (A m)
      (fun h' _ => Head lib m x0 h' (cmaUpdate lib (cmaSort lib s))) h := by
  obtain ⟨u1, u2, u3, u4, u5, u6⟩ := update_fields (lib := lib) (s := cmaSort lib s)
  have he : (QuOCS.evals h).length = L * (g + 1) := by
    rw [hs.now, List.length_append, hs.baselen, List.length_map, List.length_finRange]; ring
  have hne : QuOCS.evals h ≠ [] := by
    intro h0
    rw [h0] at he
    have : 0 < L * (g + 1) := Nat.mul_pos hL (by omega)
    simp only [List.length_nil] at he
    omega
  have hLg : L ≤ L * (g + 1) := Nat.le_mul_of_pos_right _ (by omega)
  have key : ∀ h' : List (Ev K (Vec K n) F), evals h' = evals h → objectiveCalls h' = objectiveCalls h → ResetOnce h' →
      (Strat.call (.checkCMA (List.ofFn (cmaUpdate lib (cmaSort lib s)).fsim) (cmaUpdate lib (cmaSort lib s)).calls)).wp
        (G m L x0) (A m) (fun h' _ => Head lib m x0 h' (cmaUpdate lib (cmaSort lib s))) h' := by
    intro h' e1 e2 hr
    rw [Strat.wp_call]
    have hcalls : (cmaUpdate lib (cmaSort lib s)).calls = objectiveCalls h := by rw [u6]; exact hs.calls
    refine ⟨⟨?_, ?_, ?_, ?_⟩, fun u _ => ?_⟩
    · rw [hcalls, e2]
    · rw [hcalls, hs.evals, he]; exact Dvd.intro _ rfl
    · rw [hcalls, hs.evals, he]; exact hLg
    · rw [u2]
      exact Values.of hsort (base := base) (arx := s.arx) (f0 := s.fsim) (by rw [e1]; exact hs.now)
    · have e3 : evals (h' ++ [(⟨.checkCMA (List.ofFn (cmaUpdate lib (cmaSort lib s)).fsim)
          (cmaUpdate lib (cmaSort lib s)).calls, u⟩ : Ev K (Vec K n) F)]) = evals h := by
        rw [evals_append, e1]; exact List.append_nil _
      have e4 : objectiveCalls (h' ++ [(⟨.checkCMA (List.ofFn (cmaUpdate lib (cmaSort lib s)).fsim)
          (cmaUpdate lib (cmaSort lib s)).calls, u⟩ : Ev K (Vec K n) F)]) = objectiveCalls h := by
        rw [objectiveCalls_append, e2]; exact Nat.add_zero _
      refine ⟨hr.snoc (fun b => by simp), ?_, ?_, ?_, ⟨g + 1, ?_, ?_, fun _ => ⟨base, s.fsim, ?_, ?_, ?_⟩⟩, ?_, ?_, ?_, ?_⟩
      · exact hcalls.trans e4.symm
      · rw [e4, e3, hs.evals]
      · rw [e3, u4]; exact hs.count
      · rw [u5]; show s.iterations + 1 = _; rw [hs.iter]
      · rw [e3, he]
      · rw [e3, u1]; exact hs.now
      · rw [u2]; rfl
      · rw [u3]; rfl
      · rw [e3]; exact fun h0 => absurd h0 hne
      · rw [e3]; exact fun h0 => absurd h0 hne
      · rw [e4, hs.evals, he]
        have := hs.small
        rw [hs.baselen] at this
        push_cast at this ⊢
        linarith
      · by_cases hm : m ≤ (objectiveCalls h : ℤ)
        · refine .inl ⟨_, List.mem_append_right _ (List.mem_singleton.2 rfl), ?_⟩
          show m ≤ (((cmaUpdate lib (cmaSort lib s)).calls : ℕ) : ℤ)
          rw [hcalls]; exact hm
        · rw [e4]; exact .inr (by omega)
  unfold cmaFinish
  rw [Strat.wp_bind, Strat.wp_call]
  refine ⟨trivial, fun b _ => ?_⟩
  cases b
  · simp only [Bool.false_eq_true, if_false]
    rw [Strat.wp_bind, Strat.wp_call]
    refine ⟨trivial, fun u _ => key _ ?_ ?_ ?_⟩
    · rw [evals_append, evals_append]; simp [evals, Ev.evaluated]
    · rw [objectiveCalls_append, objectiveCalls_append]; simp [objectiveCalls, Ev.isObjective]
    · exact (hs.reset.snoc (fun b => by simp)).snoc (fun b => by simp)
  · simp only [if_true]
    refine key _ ?_ ?_ ?_
    · rw [evals_append]; simp [evals, Ev.evaluated]
    · rw [objectiveCalls_append]; simp [objectiveCalls, Ev.isObjective]
    · exact hs.reset.snoc (fun b => by simp)

theorem loop_wp (hL : 0 < L) (hsort : lib.Sorts) (f : ℕ) (hs : Head lib m x0 h s) :
    (cmaLoop lib f s).wp (G m L x0) (A m) (fun h' s' => Head lib m x0 h' s') h := by
  induction f generalizing h s with
  | zero => exact (Strat.wp_fail _ _ _).2 trivial
  | succ f ih =>
    unfold cmaLoop
    rw [Strat.wp_bind, Strat.wp_call]
    refine ⟨trivial, fun b hA => ?_⟩
    have e1 : ∀ b : Bool, evals (h ++ [(⟨.readConv, b⟩ : Ev K (Vec K n) F)]) = evals h := fun b => by
      rw [evals_append]; exact List.append_nil _
    have e2 : ∀ b : Bool, objectiveCalls (h ++ [(⟨.readConv, b⟩ : Ev K (Vec K n) F)]) = objectiveCalls h := fun b => by
      rw [objectiveCalls_append]; exact Nat.add_zero _
    cases b
    · simp only [Bool.false_eq_true, if_false]
      have nt : ¬ Triggered m h := fun ht => by cases StopLaws.conv hA hs.reset ht
      obtain ⟨g, g1, g2, g3⟩ := hs.gens
      rw [Strat.wp_bind]
      refine Strat.wp_mono (sample_wp (base := evals h) (g := g) _ [] (by simp) ⟨hs.reset.snoc (fun b => by simp), ?_, ?_, ?_,
        g1, g2, ?_, ?_, ?_⟩) fun h1 s1 hs1 => ?_
      · rw [e2]; exact hs.calls
      · rw [e1, e2]; exact hs.evals
      · rw [e1]; exact hs.count
      · have := hs.trig.resolve_left nt
        rw [hs.evals] at this
        exact this
      · rw [e1]; simp
      · rw [e1]; exact hs.first
      · rw [Strat.wp_bind]
        exact Strat.wp_mono (finish_wp hL hsort hs1) fun h2 _ hs2 => ih hs2
    · simp only [if_true]
      refine (Strat.wp_pure _ _ _).2 ⟨hs.reset.snoc (fun b => by simp), ?_, ?_, ?_, ?_, ?_, ?_, ?_, ?_⟩
      · rw [e2]; exact hs.calls
      · rw [e1, e2]; exact hs.evals
      · rw [e1]; exact hs.count
      · obtain ⟨g, g1, g2, g3⟩ := hs.gens
        refine ⟨g, g1, by rw [e1]; exact g2, fun hg => ?_⟩
        obtain ⟨base, f0, a1, a2, a3⟩ := g3 hg
        exact ⟨base, f0, by rw [e1]; exact a1, a2, a3⟩
      · rw [e1]; exact hs.first
      · rw [e1]; exact hs.zero
      · rw [e2]; exact hs.bound
      · exact .inl ⟨⟨.readConv, true⟩, by simp, rfl⟩

/-- what is true of the result -/
structure RunPost (m : ℤ) (L : ℕ) (h : List (Ev K (Vec K n) F)) (r : DsmResult (Vec K n) F) : Prop where
  calls : r.nfev = objectiveCalls h
  whole : ∃ g, objectiveCalls h = L * g ∧ r.nit = g + 1
  evals : objectiveCalls h = (evals h).length
  bound : (objectiveCalls h : ℤ) ≤ max (m - 1) 0 + L
  best : 0 < objectiveCalls h → (r.xOpt, r.fMin) ∈ lastEvals L h ∧ ∀ p ∈ lastEvals L h, r.fMin ≤ p.2
  none : objectiveCalls h = 0 → r.fMin = 0 ∧ r.xOpt = 0

theorem run_wp (hL : 0 < L) (hsort : lib.Sorts) (fuel : ℕ) (sg : Vec K n) :
    (cmaRun lib hL fuel x0 sg).wp (G m L x0) (A m) (RunPost m L) [] := by
  unfold cmaRun
  rw [Strat.wp_bind, Strat.wp_call]
  refine ⟨trivial, fun u _ => ?_⟩
  rw [Strat.wp_bind]
  have h0 : Head lib m x0 ([] ++ [(⟨.setConv false, u⟩ : Ev K (Vec K n) F)]) (cmaInit hL x0 sg : CmaState K F n L) :=
    ⟨⟨[], rfl, by simp⟩, rfl, rfl, rfl, ⟨0, rfl, rfl, fun h => absurd h (by omega)⟩, fun _ => rfl,
      fun _ => ⟨fun _ => rfl, fun _ => rfl⟩, by show ((0 : ℕ) : ℤ) ≤ _; push_cast; positivity,
      .inr (by show ((0 : ℕ) : ℤ) ≤ _; simp)⟩
  refine Strat.wp_mono (loop_wp hL hsort fuel h0) fun h s hs => ?_
  rw [Strat.wp_bind, Strat.wp_call]
  refine ⟨trivial, fun r _ => (Strat.wp_pure _ _ _).2 ?_⟩
  have e1 : evals (h ++ [(⟨.reason, r⟩ : Ev K (Vec K n) F)]) = evals h := by
    rw [evals_append]; exact List.append_nil _
  have e2 : objectiveCalls (h ++ [(⟨.reason, r⟩ : Ev K (Vec K n) F)]) = objectiveCalls h := by
    rw [objectiveCalls_append]; exact Nat.add_zero _
  obtain ⟨g, g1, g2, g3⟩ := hs.gens
  refine ⟨by rw [e2]; exact hs.calls, ⟨g, by rw [e2, hs.evals, g2], g1⟩, by rw [e1, e2]; exact hs.evals, by rw [e2]; exact hs.bound,
    fun hp => ?_, fun h0 => ?_⟩
  · rw [e2, hs.evals, g2] at hp
    obtain ⟨base, f0, a1, a2, a3⟩ := g3 (Nat.pos_of_mul_pos_left hp)
    have hl : lastEvals L (h ++ [(⟨.reason, r⟩ : Ev K (Vec K n) F)]) = (List.finRange L).map (fun k => (s.arx k, f0 k)) := by
      unfold lastEvals
      rw [e1, a1, List.length_append, List.length_map, List.length_finRange, Nat.add_sub_cancel]
      simp
    rw [hl]
    refine ⟨List.mem_map.2 ⟨s.ind ⟨0, hL⟩, List.mem_finRange _, ?_⟩, ?_⟩
    · show (s.arx (s.ind ⟨0, hL⟩), f0 (s.ind ⟨0, hL⟩)) = (s.arx (s.ind ⟨0, hL⟩), s.fsim ⟨0, hL⟩)
      rw [a2, a3]; rfl
    · rintro p hp
      obtain ⟨k, -, rfl⟩ := List.mem_map.1 hp
      show s.fsim ⟨0, hL⟩ ≤ f0 k
      rw [a2]
      have := hsort L f0 (a := ⟨0, hL⟩) (b := (lib.argsort f0).symm k) (Nat.zero_le _)
      simpa using this
  · rw [e2, hs.evals] at h0
    have hz := hs.zero (List.length_eq_zero_iff.1 h0)
    exact ⟨hz.1 _, hz.2 _⟩

end

/-! ### the search ends, and it ends for a reason -/

section
variable [Add F] [Sub F] [Mul F] [Div F] [Neg F] [Zero F] [One F] [NatCast F] [LE F] [LT F] [DecidableLE F]
  [DecidableLT F]
variable {lib : CmaLib K F} {x0 : Vec K n} {m : ℤ} {M : ℕ} {h : List (Ev K (Vec K n) F)} {s : CmaState K F n L}
open NM

theorem sample2 (ks : List (Fin L)) : (cmaSample lib ks s).wp G2 (A2 m M)
    (fun h' _ => Later m h h' ∧ (evals h).length + ks.length ≤ (evals h').length) h := by
  induction ks generalizing h s with
  | nil => exact ⟨.refl _, le_rfl⟩
  | cons k ks ih =>
    unfold cmaSample
    rw [Strat.wp_bind, Strat.wp_call]
    refine ⟨trivial, fun f _ => ?_⟩
    refine Strat.wp_mono ih ?_
    rintro h' s' ⟨l, e⟩
    refine ⟨(Later.snoc (fun b => by simp)).trans l, ?_⟩
    rw [evals_append] at e
    simp only [evals_eval, List.length_append, List.length_cons, List.length_nil] at e ⊢
    omega

theorem finish2 : (cmaFinish s).wp G2 (A2 m M)
    (fun h' _ => Later m h h' ∧ (Triggered m h' ∨ (evals h').length ≤ M)) h := by
  unfold cmaFinish
  rw [Strat.wp_bind, Strat.wp_call]
  refine ⟨trivial, fun b hb => ?_⟩
  cases b
  · simp only [Bool.false_eq_true, if_false]
    rw [Strat.wp_bind, Strat.wp_call]
    refine ⟨⟨h, rfl⟩, fun u _ => ?_⟩
    rw [Strat.wp_call]
    refine ⟨trivial, fun v _ => ⟨?_, .inl ?_⟩⟩
    · exact (Later.snoc (fun b => by simp)).trans ((Later.snoc (fun b => by simp)).trans (Later.snoc (fun b => by simp)))
    · exact ⟨⟨.userStop, u⟩, by simp, trivial⟩
  · simp only [if_true]
    refine (Strat.wp_call _ _ _).2 ⟨trivial, fun v _ => ⟨?_, .inr ?_⟩⟩
    · exact (Later.snoc (fun b => by simp)).trans (Later.snoc (fun b => by simp))
    · have := hb.2 h [] (by simp)
      rw [evals_append, evals_append]
      change (evals h ++ [] ++ []).length ≤ M
      simpa using this

theorem loop2 (hL : 0 < L) (f : ℕ) (hr : ResetOnce h)
    (hf : (Triggered m h ∧ 1 ≤ f) ∨ ∃ j, j ≤ M ∧ j ≤ (evals h).length ∧ M + 2 ≤ f + j) :
    (cmaLoop lib f s).wp G2 (A2 m M) (fun _ _ => True) h := by
  induction f generalizing h s with
  | zero => exfalso; rcases hf with h | ⟨j, h1, h2, h3⟩ <;> omega
  | succ f ih =>
    unfold cmaLoop
    rw [Strat.wp_bind, Strat.wp_call]
    refine ⟨trivial, fun b hA => ?_⟩
    cases b
    swap
    · exact trivial
    simp only [Bool.false_eq_true, if_false]
    have nt : ¬ Triggered m h := fun ht => by cases hA.1.conv hr ht
    obtain ⟨j, h1, h2, h3⟩ := hf.resolve_left fun h => nt h.1
    have l0 : Later m h (h ++ [(⟨.readConv, false⟩ : Ev K (Vec K n) F)]) := .snoc (fun b => by simp)
    rw [Strat.wp_bind]
    refine Strat.wp_mono (sample2 _) ?_
    rintro h1' s1 ⟨l1, e1⟩
    rw [List.length_finRange] at e1
    rw [Strat.wp_bind]
    refine Strat.wp_mono finish2 ?_
    rintro h2' u ⟨l2, t2⟩
    have l := l0.trans (l1.trans l2)
    have e0 := l0.evals
    have e2 := l2.evals
    refine ih (l.reset hr) ?_
    rcases t2 with t2 | t2
    · exact .inl ⟨t2, by omega⟩
    · exact .inr ⟨j + 1, by omega, by omega, by omega⟩

theorem run2 (hL : 0 < L) (fuel : ℕ) (hf : M + 2 ≤ fuel) (sg : Vec K n) :
    (cmaRun lib hL fuel x0 sg).wp G2 (A2 m M) (fun _ _ => True) [] := by
  unfold cmaRun
  rw [Strat.wp_bind, Strat.wp_call]
  refine ⟨⟨rfl, rfl⟩, fun u _ => ?_⟩
  rw [Strat.wp_bind]
  refine Strat.wp_mono (loop2 hL fuel ⟨[], rfl, by simp⟩ (.inr ⟨0, by omega, by omega, by omega⟩)) fun h' s' _ => ?_
  rw [Strat.wp_bind, Strat.wp_call]
  exact ⟨trivial, fun r _ => trivial⟩

theorem loop3 (f : ℕ) : (cmaLoop lib f s).wp T1 T2 (fun h _ => SawStop h) h := by
  induction f generalizing h s with
  | zero => exact (Strat.wp_fail _ _ _).2 trivial
  | succ f ih =>
    unfold cmaLoop
    rw [Strat.wp_bind, Strat.wp_call]
    refine ⟨trivial, fun b hA => ?_⟩
    cases b
    · simp only [Bool.false_eq_true, if_false]
      exact wp_skip fun h q => wp_skip fun h q => ih
    · exact ⟨h, rfl⟩

/-- when the search has ended, the last things it did were to see the stop and to ask for the reason -/
theorem run3 (hL : 0 < L) (fuel : ℕ) (sg : Vec K n) : (cmaRun lib hL fuel x0 sg).wp T1 T2
    (fun h r => ∃ pre, h = pre ++ [⟨.readConv, true⟩, ⟨.reason, r.reason⟩]) h := by
  unfold cmaRun
  refine wp_skip fun h _ => ?_
  rw [Strat.wp_bind]
  refine Strat.wp_mono (loop3 fuel) ?_
  rintro h s ⟨pre, rfl⟩
  rw [Strat.wp_bind, Strat.wp_call]
  exact ⟨trivial, fun r _ => (Strat.wp_pure _ _ _).2 ⟨pre, by simp⟩⟩

/-- since the last check of the criteria the search was seen to go on -/
def Fresh (h : List (Ev K (Vec K n) F)) : Prop :=
  ∀ pre fs calls u mid, h = pre ++ ⟨.checkCMA fs calls, u⟩ :: mid → (⟨.readConv, false⟩ : Ev K (Vec K n) F) ∈ mid

/-- the objective is only called in that case -/
def G5 (h : List (Ev K (Vec K n) F)) : Op K (Vec K n) F → Prop
  | .eval _ _ => Fresh h
  | .drift _ _ _ => Fresh h
  | _ => True

theorem Fresh.snoc {o : Op K (Vec K n) F} {r : o.Res} (hf : Fresh h) (ho : ∀ a b, o ≠ .checkCMA a b) :
    Fresh (h ++ [⟨o, r⟩]) := by
  intro pre fs calls u mid he
  rcases List.eq_nil_or_concat mid with rfl | ⟨mid, e, rfl⟩
  · obtain ⟨-, h2⟩ := List.append_inj' (t₁ := [_]) (t₂ := [_]) he rfl
    injection h2 with h2
    exact absurd (congrArg Sigma.fst h2) (ho _ _)
  · rw [List.concat_eq_append] at he ⊢
    rw [← List.cons_append, ← List.append_assoc] at he
    obtain ⟨h1, -⟩ := List.append_inj' he rfl
    exact List.mem_append_left _ (hf _ _ _ _ _ h1)

theorem Fresh.go_on : Fresh (h ++ [(⟨.readConv, false⟩ : Ev K (Vec K n) F)]) := by
  intro pre fs calls u mid he
  rcases List.eq_nil_or_concat mid with rfl | ⟨mid, e, rfl⟩
  · obtain ⟨-, h2⟩ := List.append_inj' (t₁ := [_]) (t₂ := [_]) he rfl
    injection h2 with h2
    cases congrArg Sigma.fst h2
  · rw [List.concat_eq_append] at he ⊢
    rw [← List.cons_append, ← List.append_assoc] at he
    obtain ⟨-, h2⟩ := List.append_inj' he rfl
    injection h2 with h2
    rw [h2]; simp

theorem sample5 (ks : List (Fin L)) (hf : Fresh h) : (cmaSample lib ks s).wp G5 T2 (fun _ _ => True) h := by
  induction ks generalizing h s with
  | nil => exact trivial
  | cons k ks ih =>
    unfold cmaSample
    rw [Strat.wp_bind, Strat.wp_call]
    exact ⟨hf, fun f _ => ih (hf.snoc (by simp))⟩

theorem finish5 : (cmaFinish s).wp G5 T2 (fun _ _ => True) h := by
  unfold cmaFinish
  rw [Strat.wp_bind, Strat.wp_call]
  refine ⟨trivial, fun b _ => ?_⟩
  cases b
  · simp only [Bool.false_eq_true, if_false]
    rw [Strat.wp_bind, Strat.wp_call]
    refine ⟨trivial, fun u _ => ?_⟩
    rw [Strat.wp_call]
    exact ⟨trivial, fun v _ => trivial⟩
  · simp only [if_true]
    exact (Strat.wp_call _ _ _).2 ⟨trivial, fun v _ => trivial⟩

theorem loop5 (f : ℕ) : (cmaLoop lib f s).wp G5 T2 (fun _ _ => True) h := by
  induction f generalizing h s with
  | zero => exact (Strat.wp_fail _ _ _).2 trivial
  | succ f ih =>
    unfold cmaLoop
    rw [Strat.wp_bind, Strat.wp_call]
    refine ⟨trivial, fun b _ => ?_⟩
    cases b
    swap
    · exact trivial
    simp only [Bool.false_eq_true, if_false]
    rw [Strat.wp_bind]
    refine Strat.wp_mono (sample5 _ .go_on) fun h1 s1 _ => ?_
    rw [Strat.wp_bind]
    exact Strat.wp_mono finish5 fun h3 s3 _ => ih

theorem run5 (hL : 0 < L) (fuel : ℕ) (sg : Vec K n) : (cmaRun lib hL fuel x0 sg).wp G5 T2 (fun _ _ => True) [] := by
  unfold cmaRun
  rw [Strat.wp_bind, Strat.wp_call]
  refine ⟨trivial, fun u _ => ?_⟩
  rw [Strat.wp_bind]
  refine Strat.wp_mono (loop5 fuel) fun h s _ => ?_
  rw [Strat.wp_bind, Strat.wp_call]
  exact ⟨trivial, fun _ _ => trivial⟩

section
variable {C O : Type} {cfg : AlgCfg K F} {env : Env (Vec K n) C F} {ops : CtlOps O (Vec K n) C}

/-- a search that keeps the discipline and does not reach the cut-off, inside a run -/
theorem safe_of {α : Type} (hE : Errs env ops NotMarker) {m0 : Strat K (Vec K n) F α}
    (hw0 : m0.wp G2 (A2 cfg.sc.maxEval cfg.maxEvalTotal.toNat) (fun _ _ => True) []) :
    Safe (fun _ => True) NotMarker (m0.interp (algHandler cfg env ops)) := by
  intro s _
  refine ⟨trivial, fun e he => ?_⟩
  obtain ⟨evs, m', s1, hp, hh, hr⟩ := interp_plays (algHandler cfg env ops) m0 s
  rcases hr with ⟨a, rfl, hr⟩ | ⟨o, k, e', s2, rfl, ho, hr⟩
  · rw [hr] at he; cases he
  · rw [hr] at he; cases he
    have hw := (hp.of_wp (A := A2 cfg.sc.maxEval cfg.maxEvalTotal.toNat) (h := []) (fun pre post hpp => by
      have h1 := hh.stopLaws
      have h2 := hh.budgetLaws
      rw [hpp] at h1
      refine ⟨h1.prefix, fun pre' post' he' => h2 pre' (post' ++ post) ?_⟩
      simp only [List.nil_append] at he'
      rw [hpp, he']; simp) hw0).2
    have hT : Stable ops (fun _ : AlgState (Vec K n) C O F => True) := .triv
    have := ((hT.handler' hE (fun _ _ _ => trivial) o hw.1.errs : Safe _ _ (algHandler cfg env ops o)) s1 trivial).2 e
    exact this (by rw [ho])

/-- a search that fails right after the reset -/
theorem fail2 {e : PyErr} (he : e ≠ .outOfFuel) :
    (do Strat.call (.setConv false); Strat.fail e : Strat K (Vec K n) F (DsmResult (Vec K n) F)).wp G2 (A2 m M)
      (fun _ _ => True) [] := by
  rw [Strat.wp_bind, Strat.wp_call]
  refine ⟨⟨rfl, rfl⟩, fun u _ => ?_⟩
  refine (Strat.wp_fail _ _ _).2 ?_
  exact he

theorem population_error [FloorRing K] {log : K → K} {n : ℕ} {p : Option K} {e : PyErr}
    (h : cmaPopulation log n p = .error e) : e = .overflowError := by
  unfold cmaPopulation at h
  split at h
  · cases h; rfl
  · split at h <;> cases h

/-- inside a run the search never reaches the cut-off -/
theorem cmaes_safe [FloorRing K] {p : Option K} (hE : Errs env ops NotMarker) (fuel : ℕ)
    (hf : cfg.maxEvalTotal.toNat + 2 ≤ fuel) (i : ℕ) (x : Vec K n) (sim : List (Vec K n)) (sg : Vec K n) :
    Safe (fun _ => True) NotMarker ((cmaes lib p fuel i x sim sg).interp (algHandler cfg env ops)) := by
  refine safe_of hE ?_
  unfold cmaes
  split
  · rename_i e he
    exact fail2 (by rw [population_error he]; simp)
  · split
    · exact run2 _ fuel hf sg
    · split
      · exact fail2 (by simp)
      · exact fail2 (by simp)

/-- more rounds do not change a search that ends -/
theorem loop_fuel (f g : ℕ) (hg : f ≤ g) (st : CmaState K F n L) (s : AlgState (Vec K n) C O F)
    (h : ((cmaLoop lib f st).interp (algHandler cfg env ops) s).1 ≠ .error .outOfFuel) :
    (cmaLoop lib g st).interp (algHandler cfg env ops) s = (cmaLoop lib f st).interp (algHandler cfg env ops) s := by
  induction f generalizing g st s with
  | zero => exact absurd rfl h
  | succ f ih =>
    obtain ⟨g, rfl⟩ : ∃ g', g = g' + 1 := ⟨g - 1, by omega⟩
    unfold cmaLoop at h ⊢
    rw [Strat.interp_bind] at h ⊢
    rw [Strat.interp_bind]
    refine bind_fuel h fun b s1 h1 => ?_
    cases b
    swap
    · rfl
    simp only [Bool.false_eq_true, if_false] at h1 ⊢
    rw [Strat.interp_bind] at h1 ⊢
    rw [Strat.interp_bind]
    refine bind_fuel h1 fun st2 s2 h2 => ?_
    rw [Strat.interp_bind] at h2 ⊢
    rw [Strat.interp_bind]
    refine bind_fuel h2 fun u s3 h3 => ?_
    exact ih g (by omega) _ s3 h3

theorem run_fuel (hL : 0 < L) (fuel f : ℕ) (hf : f ≤ fuel) (x sg : Vec K n) (s : AlgState (Vec K n) C O F)
    (h : ((cmaRun lib hL f x sg).interp (algHandler cfg env ops) s).1 ≠ .error .outOfFuel) :
    (cmaRun lib hL fuel x sg).interp (algHandler cfg env ops) s = (cmaRun lib hL f x sg).interp (algHandler cfg env ops) s := by
  unfold cmaRun at h ⊢
  simp only [Strat.interp_bind] at h ⊢
  refine bind_fuel h fun _ s1 h1 => ?_
  have h5 : ((cmaLoop lib f (cmaInit hL x sg : CmaState K F n L)).interp (algHandler cfg env ops) s1).1 ≠ .error .outOfFuel := by
    intro he
    rw [Prog.bind_apply] at h1
    rcases hq : (cmaLoop lib f (cmaInit hL x sg : CmaState K F n L)).interp (algHandler cfg env ops) s1 with ⟨e | a, s5⟩
    · rw [hq] at he h1
      cases he
      exact h1 rfl
    · rw [hq] at he; cases he
  rw [Prog.bind_apply, loop_fuel _ fuel hf _ _ h5, Prog.bind_apply]

theorem cmaes_fuel [FloorRing K] {p : Option K} (hE : Errs env ops NotMarker) (fuel : ℕ)
    (hf : cfg.maxEvalTotal.toNat + 2 ≤ fuel) (i : ℕ) (x : Vec K n) (sim : List (Vec K n)) (sg : Vec K n) :
    (cmaes lib p fuel i x sim sg).interp (algHandler cfg env ops) =
      (cmaes lib p (cfg.maxEvalTotal.toNat + 2) i x sim sg).interp (algHandler cfg env ops) := by
  funext s
  have h := (cmaes_safe (lib := lib) (p := p) hE (cfg.maxEvalTotal.toNat + 2) le_rfl i x sim sg s trivial).2
  have h : ((cmaes lib p (cfg.maxEvalTotal.toNat + 2) i x sim sg).interp (algHandler cfg env ops) s).1 ≠
    .error .outOfFuel := fun he => h _ he rfl
  unfold cmaes at h ⊢
  split
  · rfl
  · rename_i l hl
    rw [hl] at h
    dsimp only at h
    split
    · rename_i h2
      rw [dif_pos h2] at h
      exact run_fuel _ _ _ hf _ _ _ h
    · rfl

end
end
end CMA
end QuOCS

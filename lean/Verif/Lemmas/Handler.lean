/-
The algorithm object obeys the laws the search methods rely on.
-/
import Verif.Lemmas.Hoare
import Verif.Lemmas.Run
import Verif.Lemmas.Strat

set_option linter.unusedSectionVars false
set_option linter.unusedVariables false

namespace QuOCS
variable {K V C O F : Type} [LE K] [DecidableLE K]
variable [Add F] [Sub F] [Mul F] [Div F] [Neg F] [Zero F] [One F] [NatCast F] [LE F] [LT F] [DecidableLE F]
  [DecidableLT F]
variable {cfg : AlgCfg K F} {env : Env V C F} {ops : CtlOps O V C}

theorem Stable.conv : Stable ops (fun s : AlgState V C O F => s.sc.isConverged = true) :=
  ⟨fun s s' h h1 _ _ => h1 h, fun s x o c h _ => h⟩

theorem OpErrs.all (o : Op K V F) : OpErrs (fun _ => True) o := by
  cases o <;> first | exact trivial | exact fun _ _ => trivial

theorem Handled.conv {s s' : AlgState V C O F} {evs : List (Ev K V F)} (h : Handled (algHandler cfg env ops) s evs s')
    (hb : ∀ b, (⟨.setConv b, ()⟩ : Ev K V F) ∉ evs) (hc : s.sc.isConverged = true) : s'.sc.isConverged = true := by
  induction evs generalizing s with
  | nil => cases h; exact hc
  | cons e evs ih =>
    obtain ⟨o, r⟩ := e
    obtain ⟨s1, h1, h2⟩ := h
    refine ih h2 (fun b hm => hb b (List.mem_cons_of_mem _ hm)) ?_
    have ho : ∀ b, o ≠ .setConv b := by
      rintro b rfl
      exact hb b (by simp)
    have := ((Stable.conv (ops := ops)).handler (cfg := cfg) (env := env) (E := fun _ => True) Errs.all o ho (.all o) s hc).1
    rwa [h1] at this

theorem nmCheck_calls {sqrt : F → F} {c : ScCfg K F} {sc sc' : Sc F} {size : Py K} {fs : List F} {n : ℕ} {t : ℚ}
    (h : nmCheck sqrt c sc size fs n t = .ok sc') (hc : c.maxEval ≤ n) : sc'.isConverged = true := by
  unfold nmCheck at h
  have h1 : (checkFuncEval c n).1 = true := by simp [checkFuncEval, hc]
  dsimp only at h
  rw [h1] at h
  split at h
  · cases h; assumption
  · rw [if_pos rfl] at h; cases h; rfl

theorem cmaCheck_calls {sqrt : F → F} {c : ScCfg K F} {sc : Sc F} {fs : List F} {n : ℕ} {t : ℚ}
    (hc : c.maxEval ≤ n) : (cmaCheck sqrt c sc fs n t).isConverged = true := by
  unfold cmaCheck
  have h1 : (checkFuncEval c n).1 = true := by simp [checkFuncEval, hc]
  dsimp only
  rw [h1]
  split
  · assumption
  · rfl

theorem algHandler_converges {s s' : AlgState V C O F} {o : Op K V F} {r : o.Res}
    (h : algHandler cfg env ops o s = (.ok r, s')) (hc : Ev.Converges cfg.sc.maxEval ⟨o, r⟩) :
    s'.sc.isConverged = true := by
  cases o with
  | readConv =>
    have hr : r = true := hc
    subst hr
    simp only [algHandler] at h
    rw [Prog.bind_apply] at h
    rcases hp : poll cfg env s with ⟨e | u, s1⟩
    · rw [hp] at h; cases h
    · rw [hp] at h
      dsimp only at h
      rw [Prog.get_bind] at h
      simp only [Prod.ext_iff] at h
      obtain ⟨h1, rfl⟩ := h
      have : (Except.ok s1.sc.isConverged : Py Bool) = .ok true := h1
      injection this
  | checkNM size fs calls =>
    simp only [algHandler] at h
    rw [Prog.bind_apply] at h
    simp only [readClock] at h
    rw [Prog.get_bind, Prog.bind_apply, Prog.lift_apply] at h
    rcases hn : nmCheck env.sqrt cfg.sc s.sc size fs calls (env.clock s.ticks) with e | sc
    · rw [hn] at h; cases h
    · rw [hn] at h
      cases h
      exact nmCheck_calls hn hc
  | checkCMA fs calls =>
    simp only [algHandler] at h
    cases h
    exact cmaCheck_calls hc
  | userStop => cases h; rfl
  | _ => exact absurd hc id

/-- The stopping-criteria object of a run does its job. -/
theorem Handled.stopLaws {s s' : AlgState V C O F} {evs : List (Ev K V F)}
    (h : Handled (algHandler cfg env ops) s evs s') : StopLaws cfg.sc.maxEval evs := by
  rintro pre ⟨o, t⟩ mid r post rfl ht hb
  rw [Handled.append, ] at h
  obtain ⟨s3, h, h4⟩ := h
  rw [Handled.append] at h
  obtain ⟨s1, h1, s2, h2, h3⟩ := h
  have hc := h3.conv hb (algHandler_converges h2 ht)
  obtain ⟨s4, h5, h6⟩ := h4
  have hp := ((Stable.conv (ops := ops)).poll (cfg := cfg) (env := env) (E := fun _ => True) Errs.all s3 hc).1
  simp only [algHandler] at h5
  rw [Prog.bind_apply] at h5
  rcases hpl : poll cfg env s3 with ⟨e | u, s5⟩
  · rw [hpl] at h5; cases h5
  · rw [hpl] at h5 hp
    dsimp only at h5 hp
    rw [Prog.get_bind] at h5
    have : (Except.ok s5.sc.isConverged : Py Bool) = .ok r := congrArg Prod.fst h5
    injection this with this
    rw [← this]; exact hp

/-- Counting of evaluations while the run goes on. -/
def Grows (cfg : AlgCfg K F) (k : ℕ) (s s' : AlgState V C O F) : Prop :=
  s'.running = true → s.running = true ∧ s.iter + k ≤ s'.iter ∧ (s.iter < s'.iter → (s'.iter : ℤ) ≤ cfg.maxEvalTotal)

theorem Grows.refl (s : AlgState V C O F) : Grows cfg 0 s s := fun h => ⟨h, le_rfl, fun h => absurd h (by omega)⟩

theorem Grows.trans {a b : ℕ} {s s' s'' : AlgState V C O F} (h : Grows cfg a s s') (h' : Grows cfg b s' s'') :
    Grows cfg (a + b) s s'' := by
  intro hr
  obtain ⟨h1, h2, h3⟩ := h' hr
  obtain ⟨g1, g2, g3⟩ := h h1
  refine ⟨g1, by omega, fun hlt => ?_⟩
  by_cases he : s'.iter < s''.iter
  · exact h3 he
  · have : s''.iter = s'.iter := by omega
    rw [this]; exact g3 (by omega)

theorem Act.grows {d : Bool} {s s' : AlgState V C O F} (h : Act cfg env ops d true s s') : Grows cfg 0 s s' := by
  intro hr
  cases h.eff with
  | still hl hi ho hr' hs =>
    refine ⟨?_, by omega, fun h => by omega⟩
    by_contra hn
    rw [hr' (by simpa using hn)] at hr; cases hr
  | counted hl hi ho hr' hm hs => rw [(hs rfl).1] at hr; cases hr
  | measured c hl hi ho hr' hm => exact ⟨hr', by omega, fun _ => by omega⟩

theorem Traced.grows {α : Type} {d : Bool} {m : Prog (AlgState V C O F) α} (hm : Traced cfg env ops d m)
    {s s' : AlgState V C O F} {a : α} (h : m s = (.ok a, s')) : Grows cfg 0 s s' := by
  obtain ⟨s1, t1, h1⟩ := hm s
  have hg : Grows cfg 0 s s1 := by
    clear h1
    induction t1 with
    | refl => exact .refl s
    | tail _ a ih => exact ih.trans a.grows
  rcases h1 with ⟨_, e⟩ | ⟨e, _⟩
  · rw [h] at e; cases e; exact hg
  · rw [h] at e; cases e

theorem routineCall_grows {x : V} {it : ℕ} {s s' : AlgState V C O F} {f : F}
    (h : routineCall cfg env ops x it s = (.ok f, s')) : Grows cfg 1 s s' := by
  intro hr
  have hs := routineCall_spec (cfg := cfg) (env := env) (ops := ops) x it s
  rw [h] at hs
  generalize hq : (Except.ok f : Py F) = q at hs
  cases hs with
  | stopped s1 q hr' => rw [hr'] at hr; cases hr
  | sigint s1 r e q hk => cases hq
  | noControls s1 e q hr' hi h => cases hq
  | window s1 o c s2 q hr' hi h q2 hr2 ha => rw [hr2] at hr; cases hr
  | windowSigint s1 o c s2 r e q hr' hi h q2 hk => cases hq
  | measured s1 o c s2 q hr' hi hg ht h q2 hr2 =>
    have hl : s2.log = s.log := q2.log.trans q.log
    have hi2 : s2.iter = s.iter + 1 := q2.iter
    have hm : (measure cfg env x c s2).2.iter = s2.iter := by
      rcases ha : env.getFoM s2.log c with e | a
      · rw [measure_raised x c s2 e ha]
      · rcases hf : a.fom with _ | f
        · rw [measure_noValue x c s2 a ha hf]
        · obtain ⟨fl, il, sc', hm⟩ := measure_answered (cfg := cfg) x c s2 a f ha hf
          rw [hm]
    rw [hm, hi2]
    exact ⟨q.running hr', by omega, fun _ => by push_cast; omega⟩

theorem innerCall_grows (hk : cfg.kind ≠ .grape) {x : V} {it : ℕ} {s s' : AlgState V C O F} {f : F}
    (h : innerCall cfg env ops x it s = (.ok f, s')) : Grows cfg 1 s s' := by
  unfold innerCall at h
  rw [Prog.modify_bind, Prog.bind_apply] at h
  rcases hc : routineCall cfg env ops x it { s with isRecord := false, stepNumber := 0 } with ⟨e | f1, s1⟩
  · rw [hc] at h; cases h
  · rw [hc] at h
    dsimp only at h
    have h1 : Grows cfg 1 s s1 := by
      have := routineCall_grows hc
      exact this
    refine h1.trans (b := 0) ?_
    rcases hre : cfg.reEval with _ | steps
    · rw [hre] at h; cases h; exact .refl _
    · have hne : cfg.reEval ≠ none := by rw [hre]; simp
      rw [hre] at h
      refine Traced.grows (d := true) (env := env) (ops := ops) ?_ h
      refine .bind .get fun s => .bind (.modify fun s => ?_) fun _ => .bind (.storeTest hk hne 0 f1) fun _ => ?_
      · exact .tests true s _ _ s.stepNumber hk hne (by simp) (by simp)
      · rcases (if s.iter = 1 then [cfg.half] else steps).getLast? with _ | last
        · exact .raise _
        · exact .reEvalLoop hk hne x it last _ 0

theorem innerGrape_grows {x : V} {s s' : AlgState V C O F} {f : F}
    (h : innerGrape cfg env ops x s = (.ok f, s')) : Grows cfg 1 s s' := by
  unfold innerGrape at h
  rw [Prog.modify_bind, Prog.bind_apply] at h
  unfold gradientControls at h
  dsimp only at h
  rcases ho : ops.getControls s.ctl x with e | ⟨o, c⟩
  · rw [ho] at h; cases h
  · rw [ho] at h
    exact routineCall_grows (s := { s with isRecord := false, ctl := o }) h

theorem Handled.grows {s s' : AlgState V C O F} {evs : List (Ev K V F)}
    (h : Handled (algHandler cfg env ops) s evs s') : Grows cfg (evals evs).length s s' := by
  induction evs generalizing s with
  | nil => cases h; exact .refl _
  | cons e evs ih =>
    obtain ⟨o, r⟩ := e
    obtain ⟨s1, h1, h2⟩ := h
    have e1 : (evals (⟨o, r⟩ :: evs : List (Ev K V F))).length =
        (evals [(⟨o, r⟩ : Ev K V F)]).length + (evals evs).length := by
      rw [← List.length_append, ← evals_append]; rfl
    rw [e1]
    refine Grows.trans ?_ (ih h2)
    cases o with
    | eval x it =>
      show Grows cfg 1 s s1
      simp only [algHandler] at h1
      split at h1
      · exact innerGrape_grows h1
      · rename_i hk; exact innerCall_grows hk h1
    | _ => exact (Traced.handler (d := true) _ (.inl rfl)).grows h1

/-- The run counts its evaluations. -/
theorem Handled.budgetLaws {s s' : AlgState V C O F} {evs : List (Ev K V F)}
    (h : Handled (algHandler cfg env ops) s evs s') : BudgetLaws cfg.maxEvalTotal.toNat evs := by
  rintro pre post rfl
  rw [Handled.append] at h
  obtain ⟨s1, h1, s2, h2, -⟩ := h
  have hr : s2.running = true := by
    simp only [algHandler] at h2
    rw [Prog.bind_apply] at h2
    rcases hp : poll cfg env s1 with ⟨e | u, s3⟩
    · rw [hp] at h2; cases h2
    · rw [hp] at h2
      dsimp only at h2
      rw [Prog.get_bind] at h2
      simp only [Prod.ext_iff] at h2
      obtain ⟨h3, rfl⟩ := h2
      have : (Except.ok s3.running : Py Bool) = .ok true := h3
      injection this
  have hg := (h1.grows.trans ((Traced.handler (d := true) _ (.inl rfl)).grows h2)) hr
  obtain ⟨-, g2, g3⟩ := hg
  by_cases hz : (evals pre).length = 0
  · omega
  · have := g3 (by omega)
    omega

end QuOCS

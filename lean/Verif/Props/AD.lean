/-
Runs of the automatic differentiation algorithm: C61 (budget and stop), C62 (best controls over super-iterations).
-/
import Verif.Model.AD
import Verif.Props.SuperIterations

set_option linter.unusedSectionVars false
set_option linter.unusedVariables false

namespace QuOCS

variable {K V C O F : Type} [LE K] [DecidableLE K]
variable [Add F] [Sub F] [Mul F] [Div F] [Neg F] [Zero F] [One F] [NatCast F] [LE F] [LT F] [DecidableLE F]
  [DecidableLT F]
variable (lib : AdLib V C F) (cfg : AlgCfg K F) (env : Env V C F) (ops : CtlOps O V C)

/-! ### C61: budget and stop -/

namespace AD

/-- `m` keeps `P`, also if it raises. -/
def Always {S α : Type} (P : S → Prop) (m : Prog S α) : Prop := ∀ s, P s → P (m s).2

section
variable {S α β : Type} {P : S → Prop}

theorem Always.pure (a : α) : Always P (Pure.pure a : Prog S α) := fun _ h => h
theorem Always.get : Always P (Prog.get : Prog S S) := fun _ h => h
theorem Always.lift (x : Py α) : Always P (Prog.lift x : Prog S α) := fun _ h => h
theorem Always.raise (e : PyErr) : Always P (Prog.raise e : Prog S α) := fun _ h => h
theorem Always.bind {m : Prog S α} {f : α → Prog S β} (hm : Always P m) (hf : ∀ a, Always P (f a)) :
    Always P (m >>= f) := by
  intro s h
  have h1 := hm s h
  rw [Prog.bind_apply]
  rcases hs : m s with ⟨e | a, s1⟩ <;> rw [hs] at h1
  · exact h1
  · exact hf a s1 h1
end

variable {lib cfg env ops} {α : Type}

theorem always_interp {P : AdState V C O F → Prop} (hv : ∀ x, Always P (onAlg (adValue cfg env ops x)))
    (hg : ∀ x, Always P (adGradient lib env ops x)) (st : AdStrat V F α) : Always P (st.interp lib cfg env ops) := by
  induction st with
  | ret a => exact .pure a
  | value x k ih => exact .bind (hv x) fun f => ih f
  | grad x k ih => exact .bind (hg x) fun g => ih g
  | fail e => exact .raise e

theorem always_loop {P : AdState V C O F → Prop} (hv : ∀ x, Always P (onAlg (adValue cfg env ops x)))
    (hg : ∀ x, Always P (adGradient lib env ops x))
    (hm : ∀ (f : AlgState V C O F → AlgState V C O F), (∀ s, (f s).log = s.log ∧ (f s).iter = s.iter) →
      Always P (onAlg (Prog.modify f)))
    (hu : Always P (onAlg (updateBasePulses ops))) (n k : ℕ) : Always P (adLoop lib cfg env ops n k) := by
  induction n generalizing k with
  | zero => exact .pure _
  | succ n ih =>
    refine .bind (.bind (hm _ fun s => ⟨rfl, rfl⟩) fun _ => .bind .get fun s => .bind (.lift _) fun o =>
      .bind (hm _ fun s => ⟨rfl, rfl⟩) fun _ => .bind ?_ fun _ => hu) fun _ => ih (k + 1)
    exact .bind .get fun s => .bind (.lift _) fun _ => .bind (.lift _) fun _ => .bind (.lift _) fun _ =>
      always_interp hv hg _

/-- calls = evaluations + gradients, and evaluations are within the budget -/
def Bounded (cfg : AlgCfg K F) (s : AdState V C O F) : Prop :=
  s.alg.log.length ≤ s.alg.iter + s.gradAt.length ∧ (s.alg.iter : ℤ) ≤ max 0 cfg.maxEvalTotal

theorem bounded_value (x : V) : Always (Bounded cfg) (onAlg (adValue cfg env ops x)) := by
  intro s h
  have hs := (routineCall_spec (cfg := cfg) (env := env) (ops := ops) x 0 { s.alg with isRecord := false }).eff
  have e : adValue cfg env ops x s.alg = routineCall cfg env ops x 0 { s.alg with isRecord := false } := rfl
  unfold Bounded onAlg at *
  simp only [e]
  cases hs with
  | still hl hi _ _ _ => rw [hl, hi]; exact h
  | counted hl hi _ _ hm _ => rw [hl, hi]; dsimp only at hm ⊢; omega
  | measured c hl hi _ _ hm _ _ _ _ _ =>
    rw [hl, hi, List.length_append, List.length_singleton]; dsimp only at hm ⊢; omega

theorem bounded_gradient (x : V) : Always (Bounded cfg) (adGradient lib env ops x) := by
  intro s h
  unfold adGradient
  rcases ops.getControls s.alg.ctl x with e | ⟨o, c⟩
  · exact h
  · have : ∀ l, Bounded cfg
        { s with alg := { s.alg with ctl := o, log := s.alg.log ++ [l] }, gradAt := s.gradAt ++ [s.alg.log.length] } := by
      intro l
      unfold Bounded at *
      simp only [List.length_append, List.length_singleton]
      omega
    dsimp only
    rcases env.getFoM s.alg.log c with e | a
    · exact this _
    · rcases hf : a.fom with _ | f <;> simp only [hf] <;> exact this _

end AD

/-- **C61, partial.** In every AD run the calls of the user's function, not counting those for a gradient, are within
the budget. Missing: the calls for gradients are not counted and not stopped, see below. -/
theorem C61_evaluations_within_budget_partial (o : O) :
    ((adExecute lib cfg env ops o).2.alg.log.length : ℤ) ≤
      max 0 cfg.maxEvalTotal + (adExecute lib cfg env ops o).2.gradAt.length := by
  have h := AD.always_loop (P := AD.Bounded (adCfg cfg)) (lib := lib) (cfg := adCfg cfg) (env := env) (ops := ops)
    AD.bounded_value AD.bounded_gradient
    (fun f hf s h => by
      unfold AD.Bounded onAlg at *
      have := hf s.alg
      simp only [Prog.modify] at *
      rw [this.1, this.2]; exact h)
    (fun s h => by
      unfold AD.Bounded onAlg updateBasePulses at *
      dsimp only
      rcases s.alg.bestXX with _ | x
      · exact h
      · dsimp only
        rcases ops.updateBase s.alg.ctl x with e | o <;> exact h)
    cfg.maxSI 1 ⟨initState (adCfg cfg) env o, []⟩ ⟨by simp [initState], by simp [initState]⟩
  have h1 := h.1
  have h2 : (adCfg cfg).maxEvalTotal = cfg.maxEvalTotal := rfl
  have h3 := h.2
  rw [h2] at h3
  unfold adExecute
  omega

/-- L-BFGS-B as it really works: value and gradient at each point -/
def adPoints {V F : Type} : List V → AdStrat V F Unit
  | [] => .ret ()
  | x :: xs => .value x fun _ => .grad x fun _ => adPoints xs

def exAd (xs : List ℚ) : AdLib ℚ ℚ ℚ := { grad := fun _ x => x, start := fun _ m _ => .ok m, search := fun _ => adPoints xs }

/-- The hypotheses of C61 are those of every run; here three points are requested twice, two evaluations are allowed. -/
example : let r := (adExecute (exAd [1, 2, 3]) (exCfg .grape 2 false none none)
      (exEnv (exAns [5, 5, 4, 4, 3, 3, 2, 2, 1, 1]) (fun _ => .none)) exOps ())
    r.1 = .ok () ∧ r.2.alg.log.map (fun c => (c.vec, c.value)) =
      [(1, some 5), (1, some 5), (2, some 4), (2, some 4), (3, some 3), (1, some 3), (2, some 2), (3, some 2)] ∧
    r.2.gradAt = [1, 3, 4, 5, 6, 7] := by decide +kernel

/-- a search that only asks for gradients -/
def adGrads : ℕ → AdStrat ℚ ℚ Unit
  | 0 => .ret ()
  | n + 1 => .grad 0 fun _ => adGrads n

/-- **C61 is violated by the calls for gradients** (ADAlgorithm.py:125-130 calls `get_FoM` directly): for every number `n`
there is an AD run with a budget of one evaluation that calls the user's function more than `n` times. -/
theorem C61_gradients_exceed_budget (n : ℕ) : ∃ (lib : AdLib ℚ ℚ ℚ) (cfg : AlgCfg ℚ ℚ) (env : Env ℚ ℚ ℚ),
    cfg.maxEvalTotal = 1 ∧ n < (adExecute lib cfg env exOps ()).2.alg.log.length := by
  let lib : AdLib ℚ ℚ ℚ := { grad := fun _ x => x, start := fun _ m _ => .ok m, search := fun _ => adGrads (n + 1) }
  let cfg : AlgCfg ℚ ℚ := { exCfg .grape 1 false none none with maxSI := 1 }
  let env := exEnv (fun _ => .ok ⟨some 5, none, none⟩) (fun _ => .none)
  refine ⟨lib, cfg, env, rfl, ?_⟩
  have key : ∀ (k : ℕ) (s : AdState ℚ ℚ Unit ℚ), ∃ s', (adGrads k).interp lib (adCfg cfg) env exOps s = (.ok (), s') ∧
      s'.alg.log.length = s.alg.log.length + k := by
    intro k
    induction k with
    | zero => exact fun s => ⟨s, rfl, rfl⟩
    | succ k ih =>
      intro s
      obtain ⟨s', h1, h2⟩ := ih
        { s with alg := { s.alg with ctl := (), log := s.alg.log ++ [⟨0, 0, .ok ⟨some 5, none, none⟩, s.alg.polls, s.alg.ticks⟩] }
                 gradAt := s.gradAt ++ [s.alg.log.length] }
      refine ⟨s', h1, ?_⟩
      rw [h2]
      simp only [List.length_append, List.length_singleton]
      omega
  obtain ⟨s', h1, h2⟩ := key (n + 1) ⟨{ (initState (adCfg cfg) env () : AlgState ℚ ℚ Unit ℚ) with superIt := 1, ctl := () }, []⟩
  have hi : adInnerRun lib (adCfg cfg) env exOps 1
      ⟨{ (initState (adCfg cfg) env () : AlgState ℚ ℚ Unit ℚ) with superIt := 1, ctl := () }, []⟩ = (.ok (), s') := h1
  have hu : ∀ s : AdState ℚ ℚ Unit ℚ, (onAlg (updateBasePulses exOps) s).2.alg.log = s.alg.log := by
    intro s
    unfold onAlg updateBasePulses
    dsimp only
    rcases s.alg.bestXX with _ | x <;> rfl
  have hl : (adExecute lib cfg env exOps ()).2.alg.log = (onAlg (updateBasePulses exOps) s').2.alg.log := by
    have e : adSuperIteration lib (adCfg cfg) env exOps 1 ⟨initState (adCfg cfg) env (), []⟩ =
        (adInnerRun lib (adCfg cfg) env exOps 1 >>= fun _ => onAlg (updateBasePulses exOps))
          ⟨{ (initState (adCfg cfg) env () : AlgState ℚ ℚ Unit ℚ) with superIt := 1, ctl := () }, []⟩ := rfl
    rw [Prog.bind_ok hi] at e
    have e2 : adExecute lib cfg env exOps () =
        (adSuperIteration lib (adCfg cfg) env exOps 1 >>= fun _ => pure ()) ⟨initState (adCfg cfg) env (), []⟩ := rfl
    rw [e2, Prog.bind_apply, e]
    rcases h : onAlg (updateBasePulses exOps) s' with ⟨x | x, s2⟩ <;> rfl
  rw [hl, hu, h2]
  simp [initState]

/-- **C61 is violated after a stop**: a stop request arrives before the second evaluation, no further value is computed,
but the user's function is still called for the gradients of all remaining points and of the second super-iteration. -/
theorem C61_calls_after_stop : (adExecute (exAd [1, 2, 3]) (exCfg .grape 100 false none none)
      (exEnv (exAns [5, 5, 4, 4, 3, 3, 2, 2, 1, 1]) (fun n => if n = 3 then .guiStop else .none)) exOps ()).2.alg.log.map
      (fun c => (c.vec, c.polls)) = [(1, 3), (1, 3), (2, 5), (3, 7), (1, 9), (2, 11), (3, 13)] := by decide +kernel

/-! ### C62: best controls over super-iterations -/

namespace AD
variable {lib cfg env ops} {α : Type} {I : O → Prop} {S : O → V → C → Prop} {SM : O → C → Prop}

theorem leads_onAlg {P Q : AlgState V C O F → Prop} {m : Prog (AlgState V C O F) α} (h : Leads P Q m) :
    Leads (fun s : AdState V C O F => P s.alg) (fun s => Q s.alg) (onAlg m) := by
  intro s a s' hs e
  unfold onAlg at e
  simp only [Prod.mk.injEq] at e
  obtain ⟨e1, rfl⟩ := e
  exact h s.alg a _ hs (Prod.ext e1 rfl)

theorem leads_value (hR : Repro ops I S SM) (hre : NoReEval cfg) (hk : cfg.kind = .grape) (x : V) :
    Leads (InSI cfg I S) (InSI cfg I S) (adValue cfg env ops x) := by
  intro s r s' hs h
  have hspec := routineCall_spec (cfg := cfg) (env := env) (ops := ops) x 0 { s with isRecord := false }
  rw [show routineCall cfg env ops x 0 { s with isRecord := false } = (.ok r, s') from h] at hspec
  exact InSI.routine hR hre (hs.frame (s' := { s with isRecord := false }) rfl rfl rfl rfl rfl) (fun h' => absurd hk h') hspec

theorem leads_gradient (hR : Repro ops I S SM) (x : V) :
    Leads (fun s : AdState V C O F => InSI cfg I S s.alg) (fun s => InSI cfg I S s.alg) (adGradient lib env ops x) := by
  intro s r s' hs h
  unfold adGradient at h
  rcases hg : ops.getControls s.alg.ctl x with e | ⟨o, c⟩
  · rw [hg] at h; cases h
  · rw [hg] at h
    dsimp only at h
    have hb := hs.build hR hg
    have : ∀ l, InSI cfg I S { s.alg with ctl := o, log := s.alg.log ++ [l] } := by
      intro l
      refine ⟨hb.inv, hb.best.imp_right ?_⟩
      rintro ⟨x', hx', c', hc', f', hf', hb', hs', hv'⟩
      exact ⟨x', hx', c', List.mem_append_left _ hc', f', hf', hb', hs', hv'⟩
    rcases ha : env.getFoM s.alg.log c with e | a
    · rw [ha] at h; cases h
    · rw [ha] at h
      dsimp only at h
      rcases hf : a.fom with _ | f
      · rw [hf] at h; cases h
      · rw [hf] at h; cases h
        exact this _

theorem leads_interp (hR : Repro ops I S SM) (hre : NoReEval cfg) (hk : cfg.kind = .grape) (st : AdStrat V F α) :
    Leads (fun s : AdState V C O F => InSI cfg I S s.alg) (fun s => InSI cfg I S s.alg) (st.interp lib cfg env ops) := by
  induction st with
  | ret a => exact .pure a
  | value x k ih => exact .bind (leads_onAlg (leads_value hR hre hk x)) fun f => ih f
  | grad x k ih => exact .bind (leads_gradient hR x) fun g => ih g
  | fail e => intro s a s' _ h; cases h

/-- One super-iteration, started before any record. -/
theorem leads_superIteration (hR : Repro ops I S SM) (hre : NoReEval cfg) (hk : cfg.kind = .grape) (k : ℕ) :
    Leads (fun s : AdState V C O F => I s.alg.ctl ∧ s.alg.bestFoM = cfg.fomMax) (fun s => BetweenSI cfg I SM s.alg)
      (adSuperIteration lib cfg env ops k) := by
  refine .bind (Q := fun s : AdState V C O F => I s.alg.ctl ∧ s.alg.bestFoM = cfg.fomMax)
    (leads_onAlg (P := fun s => I s.ctl ∧ s.bestFoM = cfg.fomMax) (Q := fun s => I s.ctl ∧ s.bestFoM = cfg.fomMax)
      (.modify fun s h => h)) fun _ => ?_
  intro s a s' hs h
  rw [Prog.get_bind, Prog.bind_apply, Prog.lift_apply] at h
  rcases ho : ops.selectBasis k s.alg.ctl with e | o
  · rw [ho] at h; cases h
  · rw [ho] at h
    dsimp only at h
    obtain ⟨h1, -⟩ := hR.basis _ _ _ hs.1 ho
    have hl : Leads (fun s1 : AdState V C O F => s1 = s) (fun s => BetweenSI cfg I SM s.alg)
        (do onAlg (Prog.modify (fun s => { s with ctl := o })); adInnerRun lib cfg env ops k; onAlg (updateBasePulses ops)) := by
      refine .bind (Q := fun s : AdState V C O F => InSI cfg I S s.alg) ?_ fun _ => .bind (Q := fun s : AdState V C O F => InSI cfg I S s.alg) ?_ fun _ =>
        leads_onAlg (InSI.updateBase hR)
      · rintro s1 a s2 rfl e
        cases e
        exact ⟨h1, .inl hs.2⟩
      · exact .bind .get fun s => .bind (.lift _) fun _ => .bind (.lift _) fun _ => .bind (.lift _) fun _ =>
          leads_interp hR hre hk _
    exact hl s a s' rfl h

end AD

section
variable {Q : Type} [Field Q] [LinearOrder Q] [IsStrictOrderedRing Q] [FloatOrder F]
variable {M : MathFns Q} {pd : List (PulseDict Q)} {td : List (TimeDict Q)} {rd : List (ParamDict Q)}
variable (rnd : ℕ → ℕ → List Q) (simplex : ℕ → List Q → List Q → Py (List (List Q)))

/-- **C62, partial.** After a completed AD run with one super-iteration (the default) and the controls object of the
library in its standard configuration: the reported figure of merit is the initial value, or it was returned by the
user's function for exactly the controls that `get_best_controls` returns. Missing: more than one super-iteration, where
this fails, see below. -/
theorem C62_best_controls_reproduced_partial (hS : StandardControls M pd td rd) (lib : AdLib (List Q) (ControlsOut Q) F)
    (h1 : cfg.maxSI = 1) (env : Env (List Q) (ControlsOut Q) F) (o : Controls Q) (ho : mkControls M pd td rd = .ok o)
    (h : (adExecute lib cfg env (controlsOps M rnd simplex) o).1 = .ok ()) :
    finalFoM cfg (adExecute lib cfg env (controlsOps M rnd simplex) o).2.alg = dirMul cfg.maximize cfg.fomMax ∨
    ∃ c ∈ (adExecute lib cfg env (controlsOps M rnd simplex) o).2.alg.log,
      c.value = some (finalFoM cfg (adExecute lib cfg env (controlsOps M rnd simplex) o).2.alg) ∧
      bestControls (controlsOps M rnd simplex) (adExecute lib cfg env (controlsOps M rnd simplex) o).2.alg = .ok c.ctl := by
  have hb : BetweenSI (adCfg cfg) (ControlsReach M pd td rd) (ShowsMean (controlsOps M rnd simplex))
      (adExecute lib cfg env (controlsOps M rnd simplex) o).2.alg := by
    have hl := AD.leads_superIteration (lib := lib) (cfg := adCfg cfg) (env := env)
      (reproducible_standard (rnd := rnd) (simplex := simplex) hS).repro (.inl rfl) rfl 1
    unfold adExecute at h ⊢
    rw [h1] at h ⊢
    unfold adLoop at h ⊢
    rw [Prog.bind_apply] at h ⊢
    rcases hs : adSuperIteration lib (adCfg cfg) env (controlsOps M rnd simplex) 1 ⟨initState (adCfg cfg) env o, []⟩ with
      ⟨e | u, s1⟩
    · rw [hs] at h; cases h
    · exact hl _ u s1 ⟨.create ho, rfl⟩ hs
  rcases hb.best with h1 | ⟨c, hc, f, hf, h1, ⟨x, hx, hs⟩, _⟩
  · left; unfold finalFoM; rw [h1]; rfl
  · refine .inr ⟨c, hc, ?_, ?_⟩
    · unfold finalFoM; rw [h1]; exact hf.trans (congrArg some (dirMul_dirMul cfg.maximize f).symm)
    · unfold bestControls
      rw [hx]
      unfold Shows at hs
      generalize hg : (controlsOps M rnd simplex).getControls
        (adExecute lib cfg env (controlsOps M rnd simplex) o).2.alg.ctl x = r at hs
      simp only [bind, Except.bind]
      rw [hg]
      rcases r with e | r
      · cases hs
      · exact hs
end

/-- figure of merit, controls of all calls, best controls of an AD run with `n` super-iterations -/
def adSiRun (n : ℕ) (fs : List ℚ) :
    Py (ℚ × List (Option ℚ × List (List ℚ) × List ℚ) × List (List ℚ) × List ℚ) := do
  let o ← mkControls exFns (siPd false) exTd siRd
  let cfg := { exCfg .grape 100 false none none with maxSI := n }
  let lib : AdLib (List ℚ) (ControlsOut ℚ) ℚ :=
    { grad := fun _ x => x, start := fun _ m _ => .ok m, search := fun _ => adPoints [[1, 2, 2], [3, 1, 1]] }
  let r := adExecute lib cfg (siEnv fs) siOps o
  r.1
  let b ← bestControls siOps r.2.alg
  pure (finalFoM cfg r.2.alg, r.2.alg.log.map (fun c => (c.value, c.ctl.pulses, c.ctl.parameters)), b.pulses, b.parameters)

set_option synthInstance.maxSize 1000 in
/-- The hypotheses of C62 are met by this run (two evaluations and two gradients). -/
example : adSiRun 1 [3, 9, 4, 9] = .ok (3, [(some 3, [[1, 2]], [2]), (some 9, [[1, 2]], [2]), (some 4, [[3, 1]], [1]),
    (some 9, [[3, 1]], [1])], [[1, 2]], [2]) := by decide +kernel

set_option synthInstance.maxSize 1000 in
/-- **C62 is violated with a second super-iteration** (ADAlgorithm.py:142: the best vector of the first super-iteration is
added again if the second one finds nothing better). The best figure of merit 3 was measured with the pulse `[1, 2]`,
`get_best_controls` returns the pulse `[2, 4]`. -/
theorem C62_second_super_iteration_spoils_best : adSiRun 2 [3, 9, 4, 9, 5, 9, 6, 9] = .ok (3,
    [(some 3, [[1, 2]], [2]), (some 9, [[1, 2]], [2]), (some 4, [[3, 1]], [1]), (some 9, [[3, 1]], [1]),
     (some 5, [[2, 4]], [2]), (some 9, [[2, 4]], [2]), (some 6, [[4, 3]], [1]), (some 9, [[4, 3]], [1])],
    [[2, 4]], [2]) := by decide +kernel

end QuOCS

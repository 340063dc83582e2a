/-
The assembled system raises nothing of its own.
-/
import Verif.Model.System
import Verif.Lemmas.Usable
import Verif.Lemmas.Fine
import Verif.Lemmas.NmStop
import Verif.Lemmas.CMAES

set_option linter.unusedSectionVars false
set_option linter.unusedVariables false

namespace QuOCS

section
variable {K : Type} [Field K] [LinearOrder K] [IsStrictOrderedRing K]
variable {M : MathFns K} {pd : List (PulseDict K)} {td : List (TimeDict K)} {rd : List (ParamDict K)}

theorem vecOfList_exists {n : ℕ} {l : List K} (h : l.length = n) : ∃ v, vecOfList n l = .ok v := by
  unfold vecOfList
  rw [dif_pos h]
  exact ⟨_, rfl⟩

theorem system_faultless (hu : Usable pd td rd) {kind : AlgKind} (hk : kind = .directSearch → pd = []) (sqrt : K → K)
    {rnd : ℕ → ℕ → List K} (hr : ∀ k, EnoughRandom pd (rnd k)) (draws : ℕ → Vec K (searchDim pd rd)) :
    Faultless (systemOps kind M sqrt rnd draws) (Ready M pd td rd) (fun sim => sim.length = searchDim pd rd + 1) where
  get c x h := by
    obtain ⟨c', o, h1, h2⟩ := h.get hu (x := List.ofFn x) (by simp)
    refine ⟨c', o, ?_, h2⟩
    show getControlsFor kind M c (List.ofFn x) = _
    unfold getControlsFor
    simp only [h1, bind, Except.bind]
    rw [if_neg]
    rintro ⟨hk', hne⟩
    obtain rfl := hk hk'
    have hp : c.pulses = [] := by
      have := (CInv.of_reach h.reach).reach.length_eq
      exact List.length_eq_zero_iff.1 this.symm
    obtain ⟨ts, _, _, ps, h3⟩ := getControls_parts h1
    unfold Controls.getControls at h1
    obtain ⟨ts, _, h1⟩ := py_bind_ok.1 h1
    obtain ⟨ps, e2, h1⟩ := py_bind_ok.1 h1
    obtain ⟨prs, _, h1⟩ := py_bind_ok.1 h1
    rw [py_pure_ok] at h1
    obtain ⟨_, rfl⟩ := Prod.mk.inj h1
    rw [hp, List.mapM_nil, py_pure_ok] at e2
    subst e2
    exact hne rfl
  mean c h := by
    obtain ⟨v, h1, h2⟩ := h.mean
    obtain ⟨w, h3⟩ := vecOfList_exists h2
    exact ⟨w, by show (do vecOfList _ (← c.mean)) = _; rw [h1]; exact h3⟩
  sigma c h := by
    obtain ⟨v, h1, h2⟩ := h.sigma hu
    obtain ⟨w, h3⟩ := vecOfList_exists h2
    exact ⟨w, by show (do vecOfList _ (← c.sigma)) = _; rw [h1]; exact h3⟩
  update c x h := h.update hu (x := List.ofFn x) (by simp)
  select k c h := h.select (hr k)
  simplex k x y := by
    show ∃ sim, simplexCreation sqrt x y (draws k) = .ok sim ∧ _
    unfold simplexCreation
    rw [if_neg hu.dim_pos.ne']
    exact ⟨_, rfl, by simp⟩

end

section
variable {K F : Type} {n : ℕ} [Field K] [LinearOrder K]
variable [Add F] [Sub F] [Mul F] [Div F] [Neg F] [Zero F] [One F] [NatCast F] [LE F] [LT F] [DecidableLE F]
  [DecidableLT F]
variable {D : Prop} {c : NmCfg K F n}

open Strat

theorem nmEval_clean (x : Vec K n) (s : NmState K F n) : (nmEval x s).Clean D := .bind (.call trivial) fun _ => .pure _

theorem nmInit_clean (ks : List (Fin (n + 1))) (s : NmState K F n) : (nmInit ks s).Clean D := by
  induction ks generalizing s with
  | nil => exact .pure _
  | cons k ks ih => exact .bind (nmEval_clean _ _) fun _ => ih _

theorem nmConv_clean : (nmConv : Strat K (Vec K n) F Bool).Clean D := .call trivial

theorem nmShrink_clean (co : NmCoef K) (js : List (Fin (n + 1))) (s : NmState K F n) : (nmShrink co js s).Clean D := by
  induction js generalizing s with
  | nil => exact .pure _
  | cons k ks ih => exact .bind nmConv_clean fun _ => .ite (fun _ => .pure _) fun _ => .bind (nmEval_clean _ _) fun _ => ih _

theorem nmExpand_clean (co : NmCoef K) (a b : Vec K n) (f : F) (s : NmState K F n) : (nmExpand co a b f s).Clean D :=
  .bind nmConv_clean fun _ => .ite (fun _ => .pure _) fun _ => .bind (nmEval_clean _ _) fun _ =>
    .ite (fun _ => .pure _) fun _ => .pure _

theorem nmOutside_clean (co : NmCoef K) (a : Vec K n) (f : F) (s : NmState K F n) : (nmOutside co a f s).Clean D :=
  .bind nmConv_clean fun _ => .ite (fun _ => .pure _) fun _ => .bind (nmEval_clean _ _) fun _ =>
    .ite (fun _ => .pure _) fun _ => .bind (nmShrink_clean _ _ _) fun _ => .pure _

theorem nmInside_clean (co : NmCoef K) (a : Vec K n) (s : NmState K F n) : (nmInside co a s).Clean D :=
  .bind nmConv_clean fun _ => .ite (fun _ => .pure _) fun _ => .bind (nmEval_clean _ _) fun _ =>
    .ite (fun _ => .pure _) fun _ => .bind (nmShrink_clean _ _ _) fun _ => .pure _

theorem nmContract_clean (hn : n ≠ 0) (co : NmCoef K) (a b : Vec K n) (f : F) (s : NmState K F n) :
    (nmContract co a b f s).Clean D := by
  obtain ⟨m, rfl⟩ := Nat.exists_eq_succ_of_ne_zero hn
  unfold nmContract
  refine .bind (m := Strat.lift (secondWorst s.fsim)) trivial fun _ => .ite (fun _ => .pure _) fun _ =>
    .ite (fun _ => nmOutside_clean _ _ _ _) fun _ => nmInside_clean _ _ _

theorem nmMove_clean (hn : n ≠ 0) (co : NmCoef K) (s : NmState K F n) : (nmMove co s).Clean D :=
  .bind (nmEval_clean _ _) fun _ => .ite (fun _ => nmExpand_clean _ _ _ _ _) fun _ => nmContract_clean hn _ _ _ _ _

theorem nmSum_clean (m : ℕ) (acc : F) (s : NmState K F n) : (nmSum m acc s).Clean D := by
  induction m generalizing acc s with
  | zero => exact .pure _
  | succ m ih => exact .bind (nmEval_clean _ _) fun _ => ih _ _

theorem nmDrift_clean (h : 0 < c.driftMinutes → D ∧ c.driftAverage ≠ 0) (s : NmState K F n) : (nmDrift c s).Clean D := by
  unfold nmDrift
  refine .ite (fun hd => ?_) fun _ => .pure _
  obtain ⟨hD, ha⟩ := h hd
  refine .bind nmConv_clean fun _ => .ite (fun _ => .pure _) fun _ => .bind (.call trivial) fun t => .ite (fun _ => ?_) fun _ => .pure _
  unfold nmDriftDo
  refine .bind (nmSum_clean _ _ _) fun r => ?_
  dsimp only
  rw [if_neg ha]
  exact .bind (.call trivial) fun _ => .bind (.call hD) fun _ => .pure _

theorem simplexSize_exists (hn : n ≠ 0) (sim : Fin (n + 1) → Vec K n) : ∃ x, simplexSize sim = .ok x := by
  unfold simplexSize
  obtain ⟨m, rfl⟩ := Nat.exists_eq_succ_of_ne_zero hn
  split
  · rename_i h
    have := congrArg List.length h
    simp [List.finRange_succ] at this
  · exact ⟨_, rfl⟩

theorem nmFinish_clean (hn : n ≠ 0) (s : NmState K F n) : (nmFinish s).Clean D := by
  unfold nmFinish
  refine .bind (.call trivial) fun b => .ite (fun _ => ?_) fun _ => .bind (.call trivial) fun _ => ?_
  all_goals exact .bind (.call (simplexSize_exists hn _)) fun _ => .pure _

theorem nmLoop_clean (hn : n ≠ 0) (h : 0 < c.driftMinutes → D ∧ c.driftAverage ≠ 0) (co : NmCoef K) (fuel : ℕ)
    (s : NmState K F n) : (nmLoop c co fuel s).Clean D := by
  induction fuel generalizing s with
  | zero => exact .fuel
  | succ fuel ih =>
    unfold nmLoop
    refine .bind nmConv_clean fun _ => .ite (fun _ => .pure _) fun _ => .bind (nmMove_clean hn _ _) fun r =>
      .ite (fun _ => .pure _) fun _ => .bind (nmDrift_clean h _) fun _ => .bind (nmFinish_clean hn _) fun _ => ih _

theorem nmRun_clean (hn : n ≠ 0) (h : 0 < c.driftMinutes → D ∧ c.driftAverage ≠ 0) (fuel : ℕ)
    (sim : Fin (n + 1) → Vec K n) : (nmRun c fuel sim).Clean D :=
  .bind (.call trivial) fun _ => .bind (.call trivial) fun _ => .bind (.call trivial) fun _ =>
    .bind (nmInit_clean _ _) fun _ => .bind (nmLoop_clean hn h _ _ _) fun _ => .bind (.call trivial) fun _ => .pure _

variable {L : ℕ} {lib : CmaLib K F}

theorem cmaSample_clean (ks : List (Fin L)) (s : CmaState K F n L) : (cmaSample lib ks s).Clean D := by
  induction ks generalizing s with
  | nil => exact .pure _
  | cons k ks ih => exact .bind (.call trivial) fun _ => ih _

theorem cmaLoop_clean (fuel : ℕ) (s : CmaState K F n L) : (cmaLoop lib fuel s).Clean D := by
  induction fuel generalizing s with
  | zero => exact .fuel
  | succ fuel ih =>
    unfold cmaLoop
    refine .bind (.call trivial) fun _ => .ite (fun _ => .pure _) fun _ => .bind (cmaSample_clean _ _) fun r =>
      .bind ?_ fun _ => ih _
    unfold cmaFinish
    refine .bind (.call trivial) fun b => .ite (fun _ => ?_) fun _ => .bind (.call trivial) fun _ => ?_
    all_goals exact .call trivial

theorem cmaRun_clean (hL : 0 < L) (fuel : ℕ) (x0 sg : Vec K n) : (cmaRun lib hL fuel x0 sg).Clean D :=
  .bind (.call trivial) fun _ => .bind (cmaLoop_clean _ _) fun _ => .bind (.call trivial) fun _ => .pure _

section
variable {C O : Type} {cfg : AlgCfg K F} {env : Env (Vec K n) C F} {ops : CtlOps O (Vec K n) C}

/-- a search that keeps the discipline is not cut off inside a run -/
theorem not_cut {α : Type} {m0 : Strat K (Vec K n) F α}
    (hw0 : m0.wp NM.G2 (NM.A2 cfg.sc.maxEval cfg.maxEvalTotal.toNat) (fun _ _ => True) [])
    {evs : List (Ev K (Vec K n) F)} {o : Op K (Vec K n) F} {k : o.Res → Strat K (Vec K n) F α} {s s1 : AlgState (Vec K n) C O F}
    (hp : Plays m0 evs (.op o k)) (hh : Handled (algHandler cfg env ops) s evs s1) : o ≠ .fail .outOfFuel := by
  have hw := (hp.of_wp (A := NM.A2 cfg.sc.maxEval cfg.maxEvalTotal.toNat) (h := []) (fun pre post hpp => by
      have h1 := hh.stopLaws
      have h2 := hh.budgetLaws
      rw [hpp] at h1
      refine ⟨h1.prefix, fun pre' post' he' => h2 pre' (post' ++ post) ?_⟩
      simp only [List.nil_append] at he'
      rw [hpp, he']; simp) hw0).2
  have := hw.1.errs
  rintro rfl
  exact this rfl

variable {I : O → Prop} {S : List (Vec K n) → Prop} {bx xs : Bool}

/-- Nelder-Mead inside a run raises nothing of its own -/
theorem nelderMead_fine (hk : cfg.kind ≠ .grape) (hF : Faultless ops I S) (hne : cfg.reEval ≠ some [])
    (hD : cfg.reEval ≠ none → D) (hn : n ≠ 0) (h : 0 < c.driftMinutes → D ∧ c.driftAverage ≠ 0) (fuel : ℕ)
    (hf : cfg.maxEvalTotal.toNat + 2 ≤ fuel) (i : ℕ) (x : Vec K n) (sim : List (Vec K n)) (sg : Vec K n) (hs : sim.length = n + 1) :
    Fine (Sound cfg I bx xs) (Sound cfg I bx xs) (FailsFor env D)
      ((nelderMead c fuel i x sim sg).interp (algHandler cfg env ops)) := by
  unfold nelderMead
  rw [dif_pos hs]
  exact Sound.interp hk hF hne hD _ (nmRun_clean hn h fuel _) fun evs o k s s1 hp hh =>
    not_cut (NM.run2 fuel hf _) hp hh

/-- CMA-ES inside a run raises nothing of its own -/
theorem cmaes_fine [FloorRing K] {p : Option K} (hk : cfg.kind ≠ .grape) (hF : Faultless ops I S) (hne : cfg.reEval ≠ some [])
    (hD : cfg.reEval ≠ none → D) {l : ℤ} (hp : cmaPopulation lib.log n p = .ok l) (hl : 2 ≤ l) (fuel : ℕ)
    (hf : cfg.maxEvalTotal.toNat + 2 ≤ fuel) (i : ℕ) (x : Vec K n) (sim : List (Vec K n)) (sg : Vec K n) :
    Fine (Sound cfg I bx xs) (Sound cfg I bx xs) (FailsFor env D)
      ((cmaes lib p fuel i x sim sg).interp (algHandler cfg env ops)) := by
  unfold cmaes
  rw [hp]
  dsimp only
  rw [dif_pos hl]
  exact Sound.interp hk hF hne hD _ (cmaRun_clean _ fuel _ _) fun evs o k s s1 hp hh =>
    not_cut (CMA.run2 _ fuel hf sg) hp hh

end
end
end QuOCS

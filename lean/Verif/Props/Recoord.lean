/-
C94. The origin and the unit of a control parameter do not matter.
-/
import Verif.Spec.Recoord
import Verif.Lemmas.RecoordControls
import Verif.Props.Usable
import Verif.Props.CmaReference

set_option linter.unusedSectionVars false
set_option linter.unusedVariables false

namespace QuOCS

section
variable {K : Type} [Field K] [LinearOrder K] [IsStrictOrderedRing K] {n : ℕ}

theorem foldl_max_le_units {t : K} : ∀ (xs : List K) (x : K), xs.foldl max x ≤ t ↔ x ≤ t ∧ ∀ y ∈ xs, y ≤ t := by
  intro xs
  induction xs with
  | nil => intro x; simp
  | cons y xs ih => intro x; rw [List.foldl_cons, ih]; simp [and_assoc]

theorem simplexSize_le {sim : Fin (n + 1) → Vec K n} {m t : K} (h : simplexSize sim = .ok m) :
    m ≤ t ↔ ∀ i j : Fin n, |sim i.succ j - sim 0 j| ≤ t := by
  unfold simplexSize at h
  have key : ∀ l : List K, (match l with | [] => .error .valueError | x :: xs => .ok (xs.foldl max x) : Py K) = .ok m →
      (m ≤ t ↔ ∀ y ∈ l, y ≤ t) := by
    intro l hl
    rcases l with _ | ⟨x, xs⟩
    · cases hl
    · cases hl
      rw [foldl_max_le_units]
      simp
  rw [key _ h]
  simp only [List.mem_flatMap, List.mem_map, List.mem_finRange, true_and]
  exact ⟨fun g i j => g _ ⟨i, j, rfl⟩, fun g y ⟨i, j, hy⟩ => hy ▸ g i j⟩

theorem simplexSize_inUnits {ws : List (K × K)} (hw : ws.length = n) (hp : ∀ w ∈ ws, 0 < w.1) {t t' : K} (ht : SameTolerance ws t t')
    (sim : Fin (n + 1) → Vec K n) : SameSize t t' (simplexSize sim) (simplexSize fun i => vecInUnits ws (sim i)) := by
  have he : ∀ sim : Fin (n + 1) → Vec K n, (n = 0 ∧ simplexSize sim = .error .valueError) ∨ ∃ m, simplexSize sim = .ok m := by
    intro sim
    unfold simplexSize
    rcases n with _ | n
    · exact .inl ⟨rfl, rfl⟩
    · right
      rcases h : ((List.finRange (n + 1)).flatMap (fun i => (List.finRange (n + 1)).map (fun j => |sim i.succ j - sim 0 j|))) with _ | ⟨x, xs⟩
      · rw [List.finRange_succ] at h; simp at h
      · rw [h]; exact ⟨_, rfl⟩
  rcases he sim with ⟨h0, h1⟩ | ⟨m, h1⟩ <;> rcases he (fun i => vecInUnits ws (sim i)) with ⟨h0', h2⟩ | ⟨m', h2⟩
  · rw [h1, h2]; rfl
  · subst h0; unfold simplexSize at h2; simp at h2
  · subst h0'; unfold simplexSize at h1; simp at h1
  · rw [h1, h2]
    show m' ≤ t' ↔ m ≤ t
    rw [simplexSize_le h1, simplexSize_le h2]
    refine forall_congr' fun i => forall_congr' fun j => ?_
    have hj : (j : ℕ) < ws.length := by have := j.2; omega
    have hm : ws[(j : ℕ)] ∈ ws := List.getElem_mem hj
    rw [← ht _ hm _ (abs_nonneg _)]
    unfold vecInUnits
    rw [getIdx_getElem ws hj, add_sub_add_right_eq_sub, ← mul_sub, abs_mul, abs_of_pos (hp _ hm)]

variable {F : Type} [Add F] [Sub F] [Mul F] [Div F] [Neg F] [Zero F] [One F] [NatCast F] [LE F] [LT F] [DecidableLE F]
  [DecidableLT F] [DecidableEq F]
variable {M : MathFns K} {pd : List (PulseDict K)} {td : List (TimeDict K)} {rd : List (ParamDict K)} {us : List (K × K)}
variable {sqrt : K → K} {rnd : ℕ → ℕ → List K} {draws : ℕ → Vec K (searchDim pd rd)} {cfg : AlgCfg K F}
  {env : Env (Vec K (searchDim pd rd)) (ControlsOut K) F}

theorem slotUnits_pos (hp : ∀ u ∈ us, 0 < u.1) : ∀ w ∈ slotUnits pd us, 0 < w.1 := by
  intro w hw
  rcases List.mem_append.1 hw with h | h
  · rw [(List.mem_replicate.1 h).2]; exact one_pos
  · exact hp w h

theorem nelderMead_inUnits {ws : List (K × K)} (hw : ws.length = n) (hp : ∀ w ∈ ws, 0 < w.1) {t' : K}
    (ht : SameTolerance ws cfg.sc.xatol t') (c : NmCfg K F n) (fuel : ℕ) :
    DsmSim cfg t' (vecInUnits ws) (sizesInUnits ws) (nelderMead c fuel) (nelderMead c fuel) := by
  intro i x sim sg
  unfold nelderMead
  by_cases h : sim.length = n + 1
  · rw [dif_pos h, dif_pos (by simpa using h)]
    have hT : Affine (vecInUnits ws : Vec K n → Vec K n) := ⟨_, _, fun _ _ => rfl⟩
    have hF : FitsMap (id : F → F) c := ⟨fun _ _ => Iff.rfl, fun _ _ => Iff.rfl, fun _ => rfl, fun _ _ fs _ => by simp, fun _ _ _ _ => rfl⟩
    have hs := nmRun_sim hT (fun sim => simplexSize_inUnits hw hp ht sim) hF fuel (fun i => sim[i])
    simp only [Fin.getElem_fin, List.getElem_map]
    exact hs.imp fun p q hq => by rw [hq]
  · rw [dif_neg h, dif_neg (by simpa using h)]
    exact .fail _

/-- **C94** (what the user's function becomes). For every function of the user, and all units with positive factors, there is the function
that expects its controls in the other units and answers the same. -/
theorem C94_user_function (hp : ∀ u ∈ us, 0 < u.1) (fm : List (Call (Vec K n) (ControlsOut K) F) → ControlsOut K → Py (Answer F)) :
    ∃ fm', InUnits (vecInUnits (slotUnits pd us)) (ControlsOut.inUnits us) fm fm' := by
  have hget : ∀ (ws : List (K × K)), (∀ w ∈ ws, 0 < w.1) → ∀ i, (ws.getD i (1, 0)).1 ≠ 0 := by
    intro ws hw i
    by_cases h : i < ws.length
    · rw [getIdx_getElem ws h]
      exact (hw _ (List.getElem_mem h)).ne'
    · rw [List.getD, List.getElem?_eq_none (by omega)]
      exact one_ne_zero
  have hi : Function.Injective (ControlsOut.inUnits us) := by
    rintro ⟨p, g, v⟩ ⟨p', g', v'⟩ h
    unfold ControlsOut.inUnits at h
    simp only [ControlsOut.mk.injEq] at h ⊢
    obtain ⟨h1, h2, h3⟩ := h
    refine ⟨h1, h2, List.ext_getElem ?_ fun i a1 a2 => ?_⟩
    · simpa using congrArg List.length h3
    · have := congrArg (fun l => l[i]?) h3
      simp only [List.getElem?_mapIdx, List.getElem?_eq_getElem a1, List.getElem?_eq_getElem a2, Option.map_some, Option.some.injEq] at this
      exact mul_left_cancel₀ (hget us hp i) (add_right_cancel this)
  have hT : Function.Injective (vecInUnits (slotUnits pd us) : Vec K n → Vec K n) := by
    intro x y h
    funext j
    exact mul_left_cancel₀ (hget _ (slotUnits_pos hp) j) (add_right_cancel (congrFun h j))
  have hl : Function.Injective (List.map (Call.recoord (F := F) (vecInUnits (slotUnits pd us) : Vec K n → Vec K n) (ControlsOut.inUnits us))) := by
    refine List.map_injective_iff.2 ?_
    rintro ⟨⟩ ⟨⟩ h
    simp only [Call.recoord, Call.mk.injEq] at h ⊢
    exact ⟨hT h.1, hi h.2.1, h.2.2⟩
  classical
  refine ⟨fun l' c' => if h : ∃ p : List (Call (Vec K n) (ControlsOut K) F) × ControlsOut K,
    p.1.map (Call.recoord (vecInUnits (slotUnits pd us)) (ControlsOut.inUnits us)) = l' ∧ p.2.inUnits us = c'
    then fm h.choose.1 h.choose.2 else .error .valueError, fun l c => ?_⟩
  have h : ∃ p : List (Call (Vec K n) (ControlsOut K) F) × ControlsOut K,
    p.1.map (Call.recoord (vecInUnits (slotUnits pd us)) (ControlsOut.inUnits us)) =
      l.map (Call.recoord (vecInUnits (slotUnits pd us)) (ControlsOut.inUnits us)) ∧ p.2.inUnits us = c.inUnits us := ⟨(l, c), rfl, rfl⟩
  exact (dif_pos h).trans (by rw [hl h.choose_spec.1, hi h.choose_spec.2])

/-- **C94** (Nelder-Mead). Give every parameter another unit (a positive factor) and another origin: initial value and limits are declared in the
new unit, the amplitude variation is multiplied with the factor, the user's function gets its parameters in the new unit, and the tolerance for
the size of the simplex says the same of distances in the new units. Then the construction succeeds as before, and the run is the same run: the same
exception if any, call by call the same pulses, the same parameters in the new units and the same answers at the same times, the same reports to
the results, the same best controls and figure of merit, the same reasons for stopping. For dCRAB and DirectSearch, every user function (with or
without memory), all random numbers, stop requests, clocks, re-evaluation, drift compensation. Evolution times are not optimized. -/
theorem C94_units_nelder_mead (hf : FixedTimes td) (hu : us.length = rd.length) (hp : ∀ u ∈ us, 0 < u.1) {t' : K}
    (ht : SameTolerance (slotUnits pd us) cfg.sc.xatol t')
    {fm : List (Call (Vec K (searchDim pd rd)) (ControlsOut K) F) → ControlsOut K → Py (Answer F)}
    (hfm : InUnits (vecInUnits (slotUnits pd us)) (ControlsOut.inUnits us) env.getFoM fm) (c : NmCfg K F (searchDim pd rd)) (fuel : ℕ)
    {o : Controls K} (ho : mkControls M pd td rd = .ok o) :
    ∃ o', mkControls M pd td (paramsInUnits us rd) = .ok o' ∧
      SameRunIn (systemOps cfg.kind M sqrt rnd draws) (systemOps cfg.kind M sqrt rnd draws) cfg (vecInUnits (slotUnits pd us)) (ControlsOut.inUnits us)
        (execute cfg env (systemOps cfg.kind M sqrt rnd draws) (nelderMead c fuel) o)
        (execute (cfg.withTol t') (env.asking fm) (systemOps cfg.kind M sqrt rnd draws) (nelderMead c fuel) o') := by
  have h' := mkControls_inUnits us ho
  exact ⟨_, h', execute_recoord (corresponds_inUnits cfg.kind sqrt rnd draws hf hp hu rfl) hfm
    (nelderMead_inUnits (slotUnits_length hu rfl) (slotUnits_pos hp) ht c fuel) ⟨.create ho, .create h', rfl⟩⟩

theorem AlgCfg.withTol_self (cfg : AlgCfg K F) : cfg.withTol cfg.sc.xatol = cfg := rfl

/-- **C94** (another origin, Nelder-Mead). If only the origins change (the factors are 1) the tolerance is the same: an offset that is added to the
initial value and the limits of a parameter, and subtracted again by the user's function, does not change the run. -/
theorem C94_origin_nelder_mead (hf : FixedTimes td) (hu : us.length = rd.length) (h1 : ∀ u ∈ us, u.1 = 1)
    {fm : List (Call (Vec K (searchDim pd rd)) (ControlsOut K) F) → ControlsOut K → Py (Answer F)}
    (hfm : InUnits (vecInUnits (slotUnits pd us)) (ControlsOut.inUnits us) env.getFoM fm) (c : NmCfg K F (searchDim pd rd)) (fuel : ℕ)
    {o : Controls K} (ho : mkControls M pd td rd = .ok o) :
    ∃ o', mkControls M pd td (paramsInUnits us rd) = .ok o' ∧
      SameRunIn (systemOps cfg.kind M sqrt rnd draws) (systemOps cfg.kind M sqrt rnd draws) cfg (vecInUnits (slotUnits pd us)) (ControlsOut.inUnits us)
        (execute cfg env (systemOps cfg.kind M sqrt rnd draws) (nelderMead c fuel) o)
        (execute cfg (env.asking fm) (systemOps cfg.kind M sqrt rnd draws) (nelderMead c fuel) o') :=
  C94_units_nelder_mead (t' := cfg.sc.xatol) hf hu (fun u hm => by rw [h1 u hm]; exact one_pos) (fun w hw y hy => by
    rw [show w.1 = 1 from by
      rcases List.mem_append.1 hw with h | h
      · rw [(List.mem_replicate.1 h).2]
      · exact h1 w h, one_mul]) hfm c fuel ho

/-- **C94** (one common unit, Nelder-Mead). Without pulses, if all parameters get the same factor, the tolerance has to be multiplied with it. -/
theorem C94_common_unit_nelder_mead (hpd : pd = []) (hf : FixedTimes td) (hu : us.length = rd.length) {α : K} (hα : 0 < α) (h1 : ∀ u ∈ us, u.1 = α)
    {fm : List (Call (Vec K (searchDim pd rd)) (ControlsOut K) F) → ControlsOut K → Py (Answer F)}
    (hfm : InUnits (vecInUnits (slotUnits pd us)) (ControlsOut.inUnits us) env.getFoM fm) (c : NmCfg K F (searchDim pd rd)) (fuel : ℕ)
    {o : Controls K} (ho : mkControls M pd td rd = .ok o) :
    ∃ o', mkControls M pd td (paramsInUnits us rd) = .ok o' ∧
      SameRunIn (systemOps cfg.kind M sqrt rnd draws) (systemOps cfg.kind M sqrt rnd draws) cfg (vecInUnits (slotUnits pd us)) (ControlsOut.inUnits us)
        (execute cfg env (systemOps cfg.kind M sqrt rnd draws) (nelderMead c fuel) o)
        (execute (cfg.withTol (α * cfg.sc.xatol)) (env.asking fm) (systemOps cfg.kind M sqrt rnd draws) (nelderMead c fuel) o') :=
  C94_units_nelder_mead hf hu (fun u hm => by rw [h1 u hm]; exact hα) (fun w hw y hy => by
    subst hpd
    rw [h1 w (by simpa [slotUnits] using hw)]
    exact mul_le_mul_iff_right₀ hα) hfm c fuel ho

/-- **C94** (any units, Nelder-Mead without tolerance). If the search is not stopped by the size of the simplex before it vanishes (tolerance
zero or negative), every parameter can have a unit of its own and nothing else has to be changed. -/
theorem C94_any_units_nelder_mead (hf : FixedTimes td) (hu : us.length = rd.length) (hp : ∀ u ∈ us, 0 < u.1) (ht : cfg.sc.xatol ≤ 0)
    {fm : List (Call (Vec K (searchDim pd rd)) (ControlsOut K) F) → ControlsOut K → Py (Answer F)}
    (hfm : InUnits (vecInUnits (slotUnits pd us)) (ControlsOut.inUnits us) env.getFoM fm) (c : NmCfg K F (searchDim pd rd)) (fuel : ℕ)
    {o : Controls K} (ho : mkControls M pd td rd = .ok o) :
    ∃ o', mkControls M pd td (paramsInUnits us rd) = .ok o' ∧
      SameRunIn (systemOps cfg.kind M sqrt rnd draws) (systemOps cfg.kind M sqrt rnd draws) cfg (vecInUnits (slotUnits pd us)) (ControlsOut.inUnits us)
        (execute cfg env (systemOps cfg.kind M sqrt rnd draws) (nelderMead c fuel) o)
        (execute cfg (env.asking fm) (systemOps cfg.kind M sqrt rnd draws) (nelderMead c fuel) o') :=
  C94_units_nelder_mead (t' := cfg.sc.xatol) hf hu hp (fun w hw y hy => by
    have hw := slotUnits_pos hp w hw
    constructor
    · intro h
      have h0 : y = 0 := by
        by_contra hne
        have := mul_pos hw (lt_of_le_of_ne hy (Ne.symm hne))
        linarith
      rw [h0, mul_zero] at h
      rw [h0]; exact h
    · intro h
      have h0 : y = 0 := by linarith
      rw [h0, mul_zero]
      rw [h0] at h; exact h) hfm c fuel ho

theorem cmaes_origin [FloorRing K] {ws : List (K × K)} (h1 : ∀ w ∈ ws, w.1 = 1) (lib : CmaLib K F)
    (hw : ∀ L, 2 ≤ L → ∑ i, cmaWeights lib.log (L / 2) i = 1) (p : Option K) (fuel : ℕ) :
    DsmSim cfg cfg.sc.xatol (vecInUnits ws) (sizesInUnits ws) (cmaes (n := n) lib p fuel) (cmaes lib p fuel) := by
  have hg : ∀ i, (ws.getD i (1, 0)).1 = 1 := by
    intro i
    by_cases h : i < ws.length
    · rw [getIdx_getElem ws h]
      exact h1 _ (List.getElem_mem h)
    · rw [List.getD, List.getElem?_eq_none (by omega)]
      rfl
  have hT : (vecInUnits ws : Vec K n → Vec K n) = fun x => x + fun j : Fin n => (ws.getD j (1, 0)).2 := by
    funext x j
    show (ws.getD j (1, 0)).1 * x j + (ws.getD j (1, 0)).2 = x j + (ws.getD j (1, 0)).2
    rw [hg, one_mul]
  intro i x sim sg
  have hs : sizesInUnits ws sg = sg := by
    funext j
    show (ws.getD j (1, 0)).1 * sg j = sg j
    rw [hg, one_mul]
  rw [hT, hs]
  unfold cmaes
  rcases cmaPopulation lib.log n p with e | l
  · exact .op _ _ _ fun _ => .fail _
  · dsimp only
    by_cases h : 2 ≤ l
    · rw [dif_pos h, dif_pos h]
      exact (cmaRun_sim (lib := lib.inSuperIteration i) (fun f => rfl) (hw l.toNat (by omega)) _ fuel x sg).imp fun p q hq => hq.1
    · rw [dif_neg h, dif_neg h]
      by_cases h2 : l < 0
      · rw [if_pos h2]
        exact .op _ _ _ fun _ => .fail _
      · rw [if_neg h2]
        exact .op _ _ _ fun _ => .fail _

/-- **C94** (another origin, CMA-ES). The same for a search with CMA-ES, every size of the population, provided its weights sum to one (which
they do, `C29_weights_sum`). -/
theorem C94_origin_cmaes [FloorRing K] (hf : FixedTimes td) (hu : us.length = rd.length) (h1 : ∀ u ∈ us, u.1 = 1)
    {fm : List (Call (Vec K (searchDim pd rd)) (ControlsOut K) F) → ControlsOut K → Py (Answer F)}
    (hfm : InUnits (vecInUnits (slotUnits pd us)) (ControlsOut.inUnits us) env.getFoM fm) (lib : CmaLib K F)
    (hw : ∀ L, 2 ≤ L → ∑ i, cmaWeights lib.log (L / 2) i = 1) (p : Option K) (fuel : ℕ)
    {o : Controls K} (ho : mkControls M pd td rd = .ok o) :
    ∃ o', mkControls M pd td (paramsInUnits us rd) = .ok o' ∧
      SameRunIn (systemOps cfg.kind M sqrt rnd draws) (systemOps cfg.kind M sqrt rnd draws) cfg (vecInUnits (slotUnits pd us)) (ControlsOut.inUnits us)
        (execute cfg env (systemOps cfg.kind M sqrt rnd draws) (cmaes lib p fuel) o)
        (execute cfg (env.asking fm) (systemOps cfg.kind M sqrt rnd draws) (cmaes lib p fuel) o') := by
  have h' := mkControls_inUnits us ho
  have hp : ∀ u ∈ us, 0 < u.1 := fun u hm => by rw [h1 u hm]; exact one_pos
  exact ⟨_, h', execute_recoord (xatol := cfg.sc.xatol) (corresponds_inUnits cfg.kind sqrt rnd draws hf hp hu rfl) hfm
    (cmaes_origin (fun w hw => by
      rcases List.mem_append.1 hw with h | h
      · rw [(List.mem_replicate.1 h).2]
      · exact h1 w h) lib hw p fuel) ⟨.create ho, .create h', rfl⟩⟩

end

/-! ### Concrete runs -/

/-- one parameter with initial value 1 in [0, 6], first step 1 -/
def unitRd : List (ParamDict ℚ) := [{ name := "a", initialValue := 1, lower := 0, upper := 6, amplitudeVariation := 1 }]

/-- the user's function: five plus the distance of the parameter from 7/3, with the parameter given in the unit `α` and origin `a` -/
def unitEnv (α a : ℚ) : Env (Vec ℚ 1) (ControlsOut ℚ) ℚ :=
  { getFoM := fun _ c => .ok ⟨some (|(c.parameters.headD a - a) / α - 7 / 3| + 5), none, none⟩
    async := fun _ => .none, clock := fun n => n, sqrt := id, cdf := id }

/-- at most twelve calls, tolerances for the simplex and the values -/
def unitCfg (xatol : ℚ) : AlgCfg ℚ ℚ :=
  { exCfg .directSearch 12 false none none with
    sc := { maxEval := 12, timeLim := 1000, xatol := xatol, fatol := 1, cbsEvals := 100, cbsChange := 0 } }

def unitOps : CtlOps (Controls ℚ) (Vec ℚ 1) (ControlsOut ℚ) := systemOps .directSearch exFns id (fun _ _ => []) (fun _ _ => 1 / 2)

/-- the run for the parameter in the unit `α` and origin `a`: its end, the parameter in each call with the answer, the reason for the end -/
def unitRun (α a xatol : ℚ) : Py (Py Unit × List (List ℚ × Option ℚ) × String) := do
  let o ← mkControls exFns [] [] (paramsInUnits [(α, a)] unitRd)
  let r := execute (unitCfg xatol) (unitEnv α a) unitOps (nelderMead (exNm exArgsort1) 14) o
  pure (r.1, r.2.log.map (fun c => (c.ctl.parameters, c.value)), r.2.terminateReason)

set_option synthInstance.maxSize 1000 in
/-- The parameter as declared; in the unit 2 with origin 10 and tolerance 1 instead of 1/2: the same run. With the old tolerance in the new unit the
search would stop for another reason, so the tolerance has to be changed with the unit. -/
example : unitRun 1 0 (1 / 2) = .ok (.ok (), [([1], some (19 / 3)), ([2], some (16 / 3)), ([3], some (17 / 3)), ([5 / 2], some (31 / 6))],
      "Convergence of the simplex.") ∧
    unitRun 2 10 1 = .ok (.ok (), [([12], some (19 / 3)), ([14], some (16 / 3)), ([16], some (17 / 3)), ([15], some (31 / 6))],
      "Convergence of the simplex.") ∧
    unitRun 2 10 (1 / 2) = .ok (.ok (), [([12], some (19 / 3)), ([14], some (16 / 3)), ([16], some (17 / 3)), ([15], some (31 / 6))],
      "Convergence of the FoM (fatol).") := by
  refine ⟨?_, ?_, ?_⟩ <;> decide +kernel

/-- The hypotheses of `C94_units_nelder_mead` are met by the first two of these runs. -/
example : FixedTimes ([] : List (TimeDict ℚ)) ∧ (∀ u ∈ [((2 : ℚ), (10 : ℚ))], 0 < u.1) ∧
    SameTolerance (slotUnits [] [((2 : ℚ), (10 : ℚ))]) (unitCfg (1 / 2)).sc.xatol 1 ∧ (unitCfg (1 / 2)).withTol 1 = unitCfg 1 ∧
    InUnits (vecInUnits (slotUnits [] [((2 : ℚ), (10 : ℚ))])) (ControlsOut.inUnits [((2 : ℚ), (10 : ℚ))]) (unitEnv 1 0).getFoM
      (unitEnv 2 10).getFoM := by
  refine ⟨by simp [FixedTimes], by simp, fun w hw y _ => ?_, rfl, fun l c => ?_⟩
  · obtain rfl : w = (2, 10) := by simpa [slotUnits] using hw
    show 2 * y ≤ 1 ↔ y ≤ 1 / 2
    constructor <;> intro <;> linarith
  · obtain ⟨p, g, v⟩ := c
    rcases v with _ | ⟨x, v⟩
    · simp [unitEnv, ControlsOut.inUnits]
    · simp [unitEnv, ControlsOut.inUnits]

/-- The hypothesis of `C94_origin_cmaes` is met by the weights of the code. -/
example (lib : CmaLib ℝ ℝ) (h : lib.log = Real.log) : ∀ L, 2 ≤ L → ∑ i, cmaWeights lib.log (L / 2) i = 1 := by
  intro L hL
  rw [h]
  exact C29_weights_sum hL

end QuOCS

/-
C94 and C103 for CMA-ES: one common unit.
-/
import Verif.Spec.CmaScale
import Verif.Lemmas.CmaScale
import Verif.Props.AmplitudeUnit
import Verif.Props.CmaSampling

set_option linter.unusedSectionVars false
set_option linter.unusedVariables false

namespace QuOCS

section
variable {K : Type} [Field K] [LinearOrder K] [IsStrictOrderedRing K] [FloorRing K] {n : ℕ}
variable {F : Type} [Add F] [Sub F] [Mul F] [Div F] [Neg F] [Zero F] [One F] [NatCast F] [LE F] [LT F] [DecidableLE F]
  [DecidableLT F] [DecidableEq F]
variable {M : MathFns K} {pd : List (PulseDict K)} {td : List (TimeDict K)} {rd : List (ParamDict K)} {us : List (K × K)}
variable {sqrt : K → K} {rnd : ℕ → ℕ → List K} {draws : ℕ → Vec K (searchDim pd rd)} {cfg : AlgCfg K F}
  {env : Env (Vec K (searchDim pd rd)) (ControlsOut K) F}

theorem cmaes_common {ws : List (K × K)} {β : K} (hβ : 0 < β) (hn : n ≤ ws.length) (h1 : ∀ w ∈ ws, w.1 = β) (lib : CmaLib K F)
    (hl : lib.Scales β n) (hw : ∀ L, 2 ≤ L → ∑ i, cmaWeights lib.log (L / 2) i = 1) (p : Option K) (fuel : ℕ) :
    DsmSim cfg cfg.sc.xatol (vecInUnits ws) (sizesInUnits ws) (cmaes (n := n) lib p fuel) (cmaes lib p fuel) := by
  have hg : ∀ i : Fin n, (ws.getD i (1, 0)).1 = β := by
    intro i
    have h : (i : ℕ) < ws.length := lt_of_lt_of_le i.2 hn
    rw [getIdx_getElem ws h]
    exact h1 _ (List.getElem_mem h)
  have hT : (vecInUnits ws : Vec K n → Vec K n) = fun x => β • x + fun j : Fin n => (ws.getD j (1, 0)).2 := by
    funext x j
    show (ws.getD j (1, 0)).1 * x j + (ws.getD j (1, 0)).2 = β * x j + (ws.getD j (1, 0)).2
    rw [hg]
  intro i x sim sg
  have hs : sizesInUnits ws sg = β • sg := by
    funext j
    show (ws.getD j (1, 0)).1 * sg j = β * sg j
    rw [hg]
  rw [hT, hs]
  unfold cmaes
  rcases cmaPopulation lib.log n p with e | l
  · exact .op _ _ _ fun _ => .fail _
  · dsimp only
    by_cases h : 2 ≤ l
    · rw [dif_pos h, dif_pos h]
      exact (cmaRun_scale (lib := lib.inSuperIteration i) hβ.ne' ⟨hl.sqrt, hl.eigh⟩ (hw l.toNat (by omega)) _ fuel x sg).imp fun p q hq => hq.1
    · rw [dif_neg h, dif_neg h]
      by_cases h2 : l < 0
      · rw [if_pos h2]
        exact .op _ _ _ fun _ => .fail _
      · rw [if_neg h2]
        exact .op _ _ _ fun _ => .fail _

/-- **C94** (one common unit, CMA-ES). Without pulses, if all parameters get the same factor (and any new origins), a search with CMA-ES, every size of
the population, is the same run; no setting has to be changed. The square root and the eigenvalue decomposition of the library must follow the unit
(`CmaLib.Scales`). -/
theorem C94_common_unit_cmaes (hpd : pd = []) (hf : FixedTimes td) (hu : us.length = rd.length) {β : K} (hβ : 0 < β) (h1 : ∀ u ∈ us, u.1 = β)
    {fm : List (Call (Vec K (searchDim pd rd)) (ControlsOut K) F) → ControlsOut K → Py (Answer F)}
    (hfm : InUnits (vecInUnits (slotUnits pd us)) (ControlsOut.inUnits us) env.getFoM fm) (lib : CmaLib K F) (hl : lib.Scales β (searchDim pd rd))
    (hw : ∀ L, 2 ≤ L → ∑ i, cmaWeights lib.log (L / 2) i = 1) (p : Option K) (fuel : ℕ)
    {o : Controls K} (ho : mkControls M pd td rd = .ok o) :
    ∃ o', mkControls M pd td (paramsInUnits us rd) = .ok o' ∧
      SameRunIn (systemOps cfg.kind M sqrt rnd draws) (systemOps cfg.kind M sqrt rnd draws) cfg (vecInUnits (slotUnits pd us)) (ControlsOut.inUnits us)
        (execute cfg env (systemOps cfg.kind M sqrt rnd draws) (cmaes lib p fuel) o)
        (execute cfg (env.asking fm) (systemOps cfg.kind M sqrt rnd draws) (cmaes lib p fuel) o') := by
  have h' := mkControls_inUnits us ho
  have hp : ∀ u ∈ us, 0 < u.1 := fun u hm => by rw [h1 u hm]; exact hβ
  refine ⟨_, h', execute_recoord (xatol := cfg.sc.xatol) (corresponds_inUnits cfg.kind sqrt rnd draws hf hp hu rfl) hfm
    (cmaes_common hβ ?_ (fun w hw => ?_) lib hl hw p fuel) ⟨.create ho, .create h', rfl⟩⟩
  · subst hpd
    simp [slotUnits, searchDim, hu]
  · subst hpd
    exact h1 w (by simpa [slotUnits] using hw)

/-- **C103** (one common unit, CMA-ES). Without parameters, if the amplitudes of all pulses get the same factor, a search with CMA-ES, every size of
the population, is the same run; no setting has to be changed. The square root and the eigenvalue decomposition of the library must follow the unit
(`CmaLib.Scales`). -/
theorem C103_common_unit_cmaes_partial {β : K} (hβ : 0 < β) (hr : rd = []) (hf : FixedTimes td) (ho : Homogeneous (List.replicate pd.length β) pd)
    {fm : List (Call (Vec K (searchDim pd rd)) (ControlsOut K) F) → ControlsOut K → Py (Answer F)}
    (hfm : InUnits (vecInUnits (amplitudeUnits pd rd (List.replicate pd.length β))) (ControlsOut.inAmplitudes (List.replicate pd.length β))
      env.getFoM fm) (lib : CmaLib K F) (hl : lib.Scales β (searchDim pd rd))
    (hw : ∀ L, 2 ≤ L → ∑ i, cmaWeights lib.log (L / 2) i = 1) (p : Option K) (fuel : ℕ) {o : Controls K} (hm : mkControls M pd td rd = .ok o) :
    ∃ o', mkControls M (pd.map (PulseDict.inAmplitude β)) td rd = .ok o' ∧
      SameRunIn (systemOps cfg.kind M sqrt rnd draws) (systemOps cfg.kind M sqrt rnd draws) cfg
        (vecInUnits (amplitudeUnits pd rd (List.replicate pd.length β))) (ControlsOut.inAmplitudes (List.replicate pd.length β))
        (execute cfg env (systemOps cfg.kind M sqrt rnd draws) (cmaes lib p fuel) o)
        (execute cfg (env.asking fm) (systemOps cfg.kind M sqrt rnd draws) (cmaes lib p fuel) o') := by
  have hb : ∀ b ∈ List.replicate pd.length β, 0 < b := fun b h => by rw [(List.mem_replicate.1 h).2]; exact hβ
  have h' : mkControls M (pulsesInAmplitudes (List.replicate pd.length β) pd) td rd = .ok (o.inAmplitudes (List.replicate pd.length β)) := by
    rw [mkControls_amp M hb ho.length_eq, hm]; rfl
  rw [← show pulsesInAmplitudes (List.replicate pd.length β) pd = pd.map (PulseDict.inAmplitude β) from zipWith_replicate_left ..]
  refine ⟨_, h', execute_recoord (xatol := cfg.sc.xatol) (corresponds_amplitudes cfg.kind sqrt rnd draws hf hb ho rfl) hfm
    (cmaes_common hβ (amplitudeUnits_length ho.length_eq rfl).ge (fun w hw => ?_) lib hl hw p fuel) ⟨.create hm, .create h', rfl⟩⟩
  subst hr
  replace hw : w ∈ (List.zipWith (fun b d => List.replicate (PulseDict.declared d) (b, (0 : K))) (List.replicate pd.length β) pd).flatten := by
    simpa [amplitudeUnits] using hw
  obtain ⟨l, hl, hm⟩ := List.mem_flatten.1 hw
  obtain ⟨i, hi, rfl⟩ := List.getElem_of_mem hl
  rw [List.getElem_zipWith, List.getElem_replicate] at hm
  rw [(List.mem_replicate.1 hm).2]

end

/-! ### A library that meets the hypotheses -/

/-- The library `lib`, with its eigenvalue decomposition applied to the matrix divided by its size (the sum of the absolute values of its entries). -/
noncomputable def normalised {F : Type} (lib : CmaLib ℝ F) : CmaLib ℝ F :=
  { lib with eigh := fun C => ((∑ i, ∑ j, |C i j|) • (lib.eigh ((∑ i, ∑ j, |C i j|)⁻¹ • C)).1, (lib.eigh ((∑ i, ∑ j, |C i j|)⁻¹ • C)).2) }

theorem normalised_scales {F : Type} {lib : CmaLib ℝ F} (hl : lib.Genuine) {β : ℝ} (hβ : 0 < β) (n : ℕ) :
    (normalised lib).Scales β n := by
  refine ⟨fun y => ?_, fun C => ?_⟩
  · show lib.sqrt _ = β * lib.sqrt y
    rw [hl.sqrt, Real.sqrt_mul (by positivity), Real.sqrt_sq hβ.le]
  · have hs : (∑ i, ∑ j, |(β ^ 2 • C) i j|) = β ^ 2 * ∑ i, ∑ j, |C i j| := by
      simp only [Matrix.smul_apply, smul_eq_mul, abs_mul, abs_of_pos (pow_pos hβ 2), Finset.mul_sum]
    have hC : (β ^ 2 * ∑ i, ∑ j, |C i j|)⁻¹ • (β ^ 2 • C) = (∑ i, ∑ j, |C i j|)⁻¹ • C := by
      rw [smul_smul]
      congr 1
      rw [mul_inv, mul_right_comm, inv_mul_cancel₀ (pow_pos hβ 2).ne', one_mul]
    unfold normalised
    dsimp only
    rw [hs, hC, mul_smul]

theorem normalised_genuine {F : Type} {lib : CmaLib ℝ F} (hl : lib.Genuine) : (normalised lib).Genuine := by
  refine ⟨hl.log, hl.sqrt, hl.exp, fun {n} C hC => ?_⟩
  have h := hl.eigh ((∑ i, ∑ j, |C i j|)⁻¹ • C) (hC.smul _)
  refine ⟨?_, h.2⟩
  show (lib.eigh _).2 * (Matrix.diagonal ((∑ i, ∑ j, |C i j|) • (lib.eigh _).1) * (lib.eigh _).2.transpose) = C
  rw [Matrix.diagonal_smul, Matrix.smul_mul, Matrix.mul_smul, h.1, smul_smul]
  by_cases h0 : (∑ i, ∑ j, |C i j|) = 0
  · rw [h0, zero_mul, zero_smul]
    symm
    ext i j
    have h1 := (Finset.sum_eq_zero_iff_of_nonneg fun i _ => Finset.sum_nonneg fun j _ => abs_nonneg _).1 h0 i (Finset.mem_univ i)
    have h2 := (Finset.sum_eq_zero_iff_of_nonneg fun j _ => abs_nonneg _).1 h1 j (Finset.mem_univ j)
    exact abs_eq_zero.1 h2
  · rw [mul_inv_cancel₀ h0, one_smul]

/-- The hypotheses of `C94_common_unit_cmaes` and `C103_common_unit_cmaes_partial` about the library are met by a library whose functions do what their
names say, for every number of parameters and every factor. -/
example (randn : {n : ℕ} → ℕ → Fin n → ℝ) : ∃ lib : CmaLib ℝ ℝ, lib.Genuine ∧ (∀ n, lib.randn (n := n) = randn) ∧ (∀ β : ℝ, 0 < β → ∀ n, lib.Scales β n) ∧
    ∀ L, 2 ≤ L → ∑ i, cmaWeights lib.log (L / 2) i = 1 := by
  have h := (realLib_genuine randn).1
  exact ⟨normalised (realLib randn), normalised_genuine h, fun _ => rfl, fun β hβ n => normalised_scales h hβ n, fun L hL => by
    rw [(normalised_genuine h).log]
    exact C29_weights_sum hL⟩

end QuOCS

/-
CMA-ES follows a change of the origin and the (common) unit of the search vector.
-/
import Verif.Lemmas.MapSearch
import Verif.Spec.CmaScale

set_option linter.unusedSectionVars false
set_option linter.unusedVariables false

namespace QuOCS

section
variable {K F : Type} {n L : ℕ} [Field K] [LinearOrder K] [IsStrictOrderedRing K] [Zero F]
variable {S : Py K → Py K → Prop} {lib : CmaLib K F} {β : K} {a : Vec K n}

local notation "Tb" => (fun x : Vec K n => β • x + a)

/-- the same state in the other unit; the points and values of the generation may differ -/
def CmaScale (β : K) (a : Vec K n) (s s' : CmaState K F n L) : Prop :=
  s' = { s with xmean := β • s.xmean + a, pc := β • s.pc, D := β • s.D, C := β ^ 2 • s.C, invsqrtC := β⁻¹ • s.invsqrtC
                arx := s'.arx, fsim := s'.fsim }

/-- ... also the points and values -/
def CmaScaleAll (β : K) (a : Vec K n) (s s' : CmaState K F n L) : Prop :=
  s' = { s with xmean := β • s.xmean + a, pc := β • s.pc, D := β • s.D, C := β ^ 2 • s.C, invsqrtC := β⁻¹ • s.invsqrtC
                arx := fun k => β • s.arx k + a }

theorem cmaSample_scale (ks : List (Fin L)) : ∀ (s s' : CmaState K F n L), CmaScale β a s s' →
    (∀ i, i ∉ ks → s'.arx i = β • s.arx i + a ∧ s'.fsim i = s.fsim i) →
    SimMap (K := K) Tb id S (CmaScaleAll β a) (cmaSample lib ks s) (cmaSample lib ks s') := by
  induction ks with
  | nil =>
    intro s s' h1 h2
    refine .ret _ _ ?_
    unfold CmaScaleAll
    rw [h1]
    congr 1
    · funext i; exact (h2 i (by simp)).1
    · funext i; exact (h2 i (by simp)).2
  | cons k ks ih =>
    intro s s' h1 h2
    unfold CmaScale at h1
    have em : s'.xmean = β • s.xmean + a := by rw [h1]
    have e1 : s'.sigma = s.sigma := by rw [h1]
    have e2 : s'.pc = β • s.pc := by rw [h1]
    have e3 : s'.ps = s.ps := by rw [h1]
    have e4 : s'.B = s.B := by rw [h1]
    have e5 : s'.D = β • s.D := by rw [h1]
    have e6 : s'.C = β ^ 2 • s.C := by rw [h1]
    have e7 : s'.invsqrtC = β⁻¹ • s.invsqrtC := by rw [h1]
    have e8 : s'.ind = s.ind := by rw [h1]
    have e9 : s'.counteval = s.counteval := by rw [h1]
    have e10 : s'.iterations = s.iterations := by rw [h1]
    have e11 : s'.calls = s.calls := by rw [h1]
    have hx : (if s'.counteval = 0 then s'.xmean
        else s'.xmean + s'.sigma • s'.B.mulVec (fun i => s'.D i * lib.randn s'.counteval i)) =
        β • (if s.counteval = 0 then s.xmean
        else s.xmean + s.sigma • s.B.mulVec (fun i => s.D i * lib.randn s.counteval i)) + a := by
      rw [em, e1, e4, e5, e9]
      split
      · rfl
      · have hv : (fun i => (β • s.D) i * lib.randn s.counteval i) = β • fun i => s.D i * lib.randn s.counteval i := by
          funext i
          simp only [Pi.smul_apply, smul_eq_mul]
          ring
        rw [hv, Matrix.mulVec_smul, smul_comm s.sigma β, smul_add]
        abel
    unfold cmaSample
    rw [hx]
    set x := (if s.counteval = 0 then s.xmean
        else s.xmean + s.sigma • s.B.mulVec (fun i => s.D i * lib.randn s.counteval i)) with hxdef
    rw [e10]
    refine .op (.eval x s.iterations) _ _ fun f => ?_
    refine ih _ _ ?_ fun i hi => ?_
    · unfold CmaScale
      simp only [em, e1, e2, e3, e4, e5, e6, e7, e8, e9, e11]
    · show Function.update s'.arx k (β • x + a) i = β • Function.update s.arx k x i + a ∧
        Function.update s'.fsim k f i = Function.update s.fsim k f i
      rw [Function.update_apply, Function.update_apply, Function.update_apply, Function.update_apply]
      by_cases hk : i = k
      · simp only [hk, if_true, and_self]
      · simp only [hk, if_false]
        exact h2 i (by simp [hk, hi])

theorem cmaMirror_smul (c : K) (C : Matrix (Fin n) (Fin n) K) : cmaMirror (c • C) = c • cmaMirror C := by
  ext i j
  simp only [cmaMirror, Matrix.of_apply, Matrix.smul_apply]
  split <;> rfl

theorem cmaCov_scale (p : CmaPar K) {m : ℕ} (w : Fin m → K) (best best' : Fin m → Vec K n) (hb : ∀ i, best' i = β • best i + a)
    (xold pc : Vec K n) (sigma hsig : K) (C : Matrix (Fin n) (Fin n) K) :
    cmaCov p w best' (β • xold + a) (β • pc) sigma hsig (β ^ 2 • C) = β ^ 2 • cmaCov p w best xold pc sigma hsig C := by
  unfold cmaCov
  dsimp only
  have ha : (Matrix.of fun j i => (1 / sigma) * (best' i j - (β • xold + a) j) : Matrix (Fin n) (Fin m) K) =
      β • (Matrix.of fun j i => (1 / sigma) * (best i j - xold j) : Matrix (Fin n) (Fin m) K) := by
    ext j i
    simp only [Matrix.of_apply, Matrix.smul_apply, hb, Pi.add_apply, Pi.smul_apply, smul_eq_mul]
    ring
  rw [ha]
  generalize (Matrix.of fun j i => (1 / sigma) * (best i j - xold j) : Matrix (Fin n) (Fin m) K) = A
  rw [Matrix.transpose_smul, Matrix.mul_smul, Matrix.smul_mul, Matrix.mul_smul, Matrix.vecMulVec_smul, Matrix.smul_vecMulVec]
  ext i j
  simp only [Matrix.add_apply, Matrix.smul_apply, smul_eq_mul]
  ring

theorem cmaUpdate_scale (hβ : β ≠ 0) (hl : lib.Scales β n) (hw : ∑ i, cmaWeights lib.log (L / 2) i = 1) {s s' : CmaState K F n L}
    (h : CmaScaleAll β a s s') : CmaScaleAll β a (cmaUpdate lib s) (cmaUpdate lib s') := by
  have hb : ∀ i, cmaBest s' i = β • cmaBest s i + a := fun i => by unfold CmaScaleAll at h; rw [h]; rfl
  have hm : cmaMean lib s' = β • cmaMean lib s + a := by
    unfold cmaMean
    simp only [hb, smul_add, Finset.sum_add_distrib, Finset.smul_sum]
    rw [← Finset.sum_smul, hw, one_smul]
    simp only [smul_comm β]
  have hy : cmaMean lib s' - (β • s.xmean + a) = β • (cmaMean lib s - s.xmean) := by rw [hm, smul_sub]; abel
  unfold CmaScaleAll at h
  have em : s'.xmean = β • s.xmean + a := by rw [h]
  have e1 : s'.sigma = s.sigma := by rw [h]
  have e2 : s'.pc = β • s.pc := by rw [h]
  have e3 : s'.ps = s.ps := by rw [h]
  have e4 : s'.B = s.B := by rw [h]
  have e5 : s'.D = β • s.D := by rw [h]
  have e6 : s'.C = β ^ 2 • s.C := by rw [h]
  have e7 : s'.invsqrtC = β⁻¹ • s.invsqrtC := by rw [h]
  have e8 : s'.ind = s.ind := by rw [h]
  have e9 : s'.counteval = s.counteval := by rw [h]
  have e10 : s'.iterations = s.iterations := by rw [h]
  have e11 : s'.calls = s.calls := by rw [h]
  have e12 : s'.arx = fun k => β • s.arx k + a := by rw [h]
  have e13 : s'.fsim = s.fsim := by rw [h]
  have hz : (β⁻¹ • s.invsqrtC).mulVec (β • (cmaMean lib s - s.xmean)) = s.invsqrtC.mulVec (cmaMean lib s - s.xmean) := by
    rw [Matrix.mulVec_smul, Matrix.smul_mulVec, smul_smul, mul_inv_cancel₀ hβ, one_smul]
  have hpc : ∀ c d : K, c • (β • s.pc) + d • (β • (cmaMean lib s - s.xmean)) = β • (c • s.pc + d • (cmaMean lib s - s.xmean)) := fun c d => by
    rw [smul_add, smul_comm c, smul_comm d]
  unfold CmaScaleAll cmaUpdate
  dsimp only
  rw [em, e1, e2, e3, e4, e5, e6, e7, e8, e9, e10, e11, e12, e13]
  simp only [hy, hz, hpc, cmaCov_scale (β := β) (a := a) _ _ (cmaBest s) (cmaBest s') hb]
  split
  · simp only [cmaMirror_smul, hl.eigh, hm]
    congr 1
    · funext i
      exact hl.sqrt _
    · rw [← Matrix.mul_smul, ← Matrix.smul_mul]
      congr 2
      ext i j
      by_cases hij : i = j
      · subst hij
        simp only [Matrix.diagonal_apply_eq, Matrix.smul_apply, smul_eq_mul, Pi.smul_apply]
        rw [hl.sqrt, one_div, one_div, mul_inv]
      · simp [hij]
  · simp only [hm]

theorem cmaSort_scale {s s' : CmaState K F n L} (h : CmaScaleAll β a s s') : CmaScaleAll β a (cmaSort lib s) (cmaSort lib s') := by
  unfold CmaScaleAll at *
  rw [h]
  rfl

theorem cmaLoop_scale (hβ : β ≠ 0) (hl : lib.Scales β n) (hw : ∑ i, cmaWeights lib.log (L / 2) i = 1) (fuel : ℕ) :
    ∀ (s s' : CmaState K F n L), CmaScale β a s s' →
    SimMap (K := K) Tb id S (CmaScale β a) (cmaLoop lib fuel s) (cmaLoop lib fuel s') := by
  induction fuel with
  | zero => exact fun s s' h => .fail _
  | succ fuel ih =>
    intro s s' h
    refine .op .readConv _ _ fun b => ?_
    rcases b with _ | _
    · refine (cmaSample_scale (List.finRange L) s s' h fun i hi => absurd (List.mem_finRange i) hi).bind ?_
      intro s1 s1' h1
      have h2 := cmaUpdate_scale hβ hl hw (cmaSort_scale (lib := lib) h1)
      have hf : List.ofFn (cmaUpdate lib (cmaSort lib s1')).fsim = (List.ofFn (cmaUpdate lib (cmaSort lib s1)).fsim).map id := by
        unfold CmaScaleAll at h2
        rw [h2, List.map_id]
      have hcl : (cmaUpdate lib (cmaSort lib s1')).calls = (cmaUpdate lib (cmaSort lib s1)).calls := by
        unfold CmaScaleAll at h2
        rw [h2]
      have h3 : CmaScale β a (cmaUpdate lib (cmaSort lib s1)) (cmaUpdate lib (cmaSort lib s1')) := by
        unfold CmaScaleAll at h2
        unfold CmaScale
        rw [h2]
      show SimMap Tb id S _ (Strat.bind (cmaFinish _) _) (Strat.bind (cmaFinish _) _)
      unfold cmaFinish
      rw [hf, hcl]
      refine .op .callback _ _ fun b => ?_
      rcases b with _ | _
      · exact .op .userStop _ _ fun _ => .op (.checkCMA _ _) _ _ fun _ => ih _ _ h3
      · exact .op (.checkCMA _ _) _ _ fun _ => ih _ _ h3
    · exact .ret _ _ h

theorem cmaRun_scale (hβ : β ≠ 0) (hl : lib.Scales β n) (hw : ∑ i, cmaWeights lib.log (L / 2) i = 1) (hL : 0 < L) (fuel : ℕ) (x0 sg : Vec K n) :
    SimMap (K := K) Tb id S (fun p q : DsmResult (Vec K n) F => q.reason = p.reason ∧ q.nit = p.nit ∧ q.nfev = p.nfev)
      (cmaRun lib hL fuel x0 sg) (cmaRun lib hL fuel (β • x0 + a) (β • sg)) := by
  unfold cmaRun
  refine .op (.setConv _) _ _ fun _ => ?_
  have h0 : CmaScale β a (cmaInit hL x0 sg : CmaState K F n L) (cmaInit hL (β • x0 + a) (β • sg)) := by
    unfold CmaScale cmaInit
    dsimp only
    congr 1
    · rw [smul_zero]
    · ext i j
      by_cases hij : i = j
      · subst hij
        simp only [Matrix.diagonal_apply_eq, Matrix.smul_apply, smul_eq_mul, Pi.smul_apply]
        ring
      · simp [hij]
    · ext i j
      by_cases hij : i = j
      · subst hij
        simp only [Matrix.diagonal_apply_eq, Matrix.smul_apply, smul_eq_mul, Pi.smul_apply]
        rw [mul_inv]
      · simp [hij]
  refine (cmaLoop_scale (a := a) hβ hl hw fuel _ _ h0).bind ?_
  intro s s' h
  refine .op .reason _ _ fun r => .ret _ _ ⟨rfl, ?_, ?_⟩
  · unfold CmaScale at h; rw [h]
  · unfold CmaScale at h; rw [h]

end
end QuOCS

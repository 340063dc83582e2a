/-
The controls object of the library: evaluating at the mean again shows the same controls.
-/
import Verif.Lemmas.ControlsRepro
import Verif.Lemmas.BestMean

set_option linter.unusedSectionVars false

namespace QuOCS

section
variable {K : Type} [Field K] [LinearOrder K] [IsStrictOrderedRing K]
variable {M : MathFns K} {pd : List (PulseDict K)} {td : List (TimeDict K)} {rd : List (ParamDict K)}
variable {rnd : ℕ → ℕ → List K} {simplex : ℕ → List K → List K → Py (List (List K))}

/-- No update of the pulses, and for each parameter its value, possibly before it was limited. -/
def AtMean (pd : List (PulseDict K)) (c : Controls K) (x : List K) : Prop :=
  ∃ vals, x = zeros (pd.map (·.declared)).sum ++ vals ∧
    List.Forall₂ (fun (p : Param K) v => p.value = v ∨ p.value = p.checkLimits v) c.params vals

theorem gather_vals {pre : List K} {ps : List (Param K)} {vals : List K} {R : Param K → K → Prop} (h : QChain pre.length ps)
    (hv : List.Forall₂ R ps vals) :
    List.Forall₂ (fun p v => gather (pre ++ vals) p.ctrlList = .ok [v]) ps vals := by
  induction hv generalizing pre with
  | nil => exact .nil
  | @cons p v ps vals h1 h2 ih =>
    obtain ⟨q1, q2, q3⟩ := h
    refine .cons ?_ ?_
    · rw [q1]
      simp [gather, getIdx, bind, Except.bind, pure, Except.pure]
    · have := ih (pre := pre ++ [v]) (by simpa using q3)
      refine this.imp ?_
      intro a b hab
      simpa using hab

theorem CInv.gather_vals {c : Controls K} (h : CInv M pd td rd c) {vals : List K} {R : Param K → K → Prop}
    (hv : List.Forall₂ R c.params vals) :
    List.Forall₂ (fun p v => gather (zeros (pd.map (·.declared)).sum ++ vals) p.ctrlList = .ok [v]) c.params vals := by
  refine QuOCS.gather_vals ?_ hv
  have := h.qchain
  rw [h.declared] at this
  simpa [zeros] using this

/-- The controls object of the library in the standard configuration, with evaluations at the mean. -/
theorem reproMean_standard (hS : StandardControls M pd td rd) :
    ReproMean (controlsOps M rnd simplex) (ControlsReach M pd td rd) (Shows (controlsOps M rnd simplex))
      (ShowsMean (controlsOps M rnd simplex)) (AtMean pd) := by
  have hfix : ∀ {c}, ControlsReach M pd td rd c → ∀ t ∈ c.times, t.2.isOptimization = false :=
    fun hc => (CInv.of_reach hc).fixed hS.times
  refine { (reproducible_standard (rnd := rnd) (simplex := simplex) hS).repro with atMean := ?_, keepMean := ?_, showMean := ?_ }
  · intro c x hc hx
    have hx : c.mean = .ok x := hx
    rw [C21_start_point hc] at hx
    cases hx
    refine ⟨_, rfl, ?_⟩
    rw [List.forall₂_map_right_iff]
    exact List.forall₂_same.2 fun p _ => .inl rfl
  · rintro c x c' o hc ⟨vals, rfl, hv⟩ h
    obtain ⟨ts, h1, h2, h3, h4, h5, h6, h7⟩ := getControls_parts h
    refine ⟨vals, rfl, ?_⟩
    have hg := (CInv.of_reach hc).gather_vals hv
    generalize zeros (pd.map (·.declared)).sum ++ vals = y at hg h6
    clear h h1 h2 h3 h4 h5 h7
    generalize c.params = l at hg h6
    generalize c'.params = l' at h6 ⊢
    clear hv
    induction hg generalizing l' with
    | nil => cases h6; exact .nil
    | @cons p v l vals g1 g2 ih =>
      cases h6 with
      | @cons _ q _ l' e h6 =>
        refine .cons ?_ (ih _ h6)
        obtain ⟨u, hu, hq⟩ := e
        rw [g1] at hu
        cases hu
        unfold Param.setParameter at hq
        obtain ⟨a, ha, hq⟩ := py_bind_ok.1 hq
        rw [py_pure_ok] at hq
        subst hq
        right
        cases ha
        rfl
  · rintro c x o hc ⟨vals, rfl, hv⟩ h
    refine ⟨_, C21_start_point hc, ?_⟩
    have I := CInv.of_reach hc
    refine shows_transfer (hfix hc) rfl ?_ ?_ ?_ h
    · refine List.forall₂_same.2 fun p hp => ⟨rfl, fun w T r hw hr => ?_⟩
      rw [gather_mean_pulse I _ p hp] at hw
      cases hw
      exact ⟨_, r, gather_mean_pulse I _ p hp, hr, rfl⟩
    · exact List.forall₂_same.2 fun p hp => rfl
    · have hg := I.gather_vals hv
      have hm := gather_mean_param I
      have hlim : ∀ p ∈ c.params, p.lower ≤ p.upper := by
        intro p hp
        obtain ⟨d, hd, hr⟩ := forall2_right_mem I.params hp
        rw [hr.2.1, hr.2.2.1]
        exact hS.limits d hd
      generalize zeros (pd.map (·.declared)).sum ++ vals = y at hg
      generalize zeros (pd.map (·.declared)).sum ++ c.params.map (·.value) = y' at hm
      generalize c.params = l at hv hg hm hlim
      clear h
      induction hv with
      | nil => exact .nil
      | @cons p v l vals g1 g2 ih =>
        cases hg with
        | cons e hg =>
          refine .cons ?_ (ih hg (fun q hq => hm q (by simp [hq])) (fun q hq => hlim q (by simp [hq])))
          intro w r hw hr
          rw [e] at hw
          cases hw
          have hl := hlim p (by simp)
          refine ⟨_, ({ p with value := p.checkLimits p.value }, p.checkLimits p.value), hm p (by simp), rfl, ?_⟩
          have hr' : r = ({ p with value := p.checkLimits v }, p.checkLimits v) := by
            have : (.ok ({ p with value := p.checkLimits v }, p.checkLimits v) : Py (Param K × K)) = .ok r := hr
            cases this
            rfl
          rw [hr']
          show p.checkLimits p.value = p.checkLimits v
          rcases g1 with g1 | g1
          · rw [g1]
          · rw [g1, Param.checkLimits_idem hl]

end
end QuOCS

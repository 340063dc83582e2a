/-
C42: every basis reads exactly the number of coefficients it declares.
-/
import Verif.Props.Bases

set_option linter.unusedSectionVars false

namespace QuOCS

section
variable {K : Type*} [Field K] [LinearOrder K] [IsStrictOrderedRing K]

/-- The bases shipped with the library whose update is built from the coefficients alone (the Walsh basis also uses
the guess, a custom basis is user code). -/
def BuiltinBasis : Basis K → Prop
  | .walsh _ => False
  | .custom _ _ _ => False
  | _ => True

/-- Number of basis functions is positive (needed by the bases that sort their step times). -/
def PositiveBasis : Basis K → Prop
  | .sigmoidTimeDep n _ _ _ => 1 ≤ n
  | .sigmoidAllParas n _ _ _ _ => 1 ≤ n
  | _ => True

theorem mapM_getIdx2_ok {l : List ℕ} {A B : List K} {f : K → K → K}
    (h : ∀ i ∈ l, i < A.length ∧ i < B.length) :
    ∃ r, (l.mapM (fun i => do let a ← getIdx A i; let b ← getIdx B i; pure (f a b)) : Py (List K)) = .ok r
      ∧ r.length = l.length := by
  induction l with
  | nil => exact ⟨[], rfl, rfl⟩
  | cons i l ih =>
    obtain ⟨r, hr, hl⟩ := ih (fun j hj => h j (by simp [hj]))
    obtain ⟨h1, h2⟩ := h i (by simp)
    refine ⟨f (A.getD i 0) (B.getD i 0) :: r, ?_, by simp [hl]⟩
    simp only [List.mapM_cons, getIdx_getD h1, getIdx_getD h2, hr]
    rfl

theorem limitSigmas_ok (M : MathFns K) (offset sigma T : K) (active : Bool) {taus delSig : List K}
    (h : delSig.length ≤ taus.length) :
    ∃ r, limitSigmas M offset sigma T active taus delSig = .ok r ∧ r.length = delSig.length := by
  unfold limitSigmas
  cases active with
  | false => exact ⟨_, rfl, by simp⟩
  | true =>
    simp only [if_true]
    obtain ⟨r, h1, h2⟩ := mapM_getIdx2_ok (l := List.range delSig.length) (A := taus) (B := delSig)
      (f := fun τ d => sigma + ((T / 2 - |T / 2 - τ|) * (sigma / offset) - sigma) * (1 - M.cos (M.pi * d)) / 2)
      (by intro i hi; simp only [List.mem_range] at hi; exact ⟨by omega, hi⟩)
    exact ⟨r, h1, by simpa using h2⟩

theorem rescaleTaus_ok (offset T : K) {taus : List K} (h : taus ≠ []) :
    ∃ r, rescaleTaus offset T taus = .ok r := by
  unfold rescaleTaus
  have hl := List.length_insertionSort (· ≤ ·) taus
  split
  · rename_i h0
    rw [h0] at hl
    exact absurd (List.length_eq_zero_iff.1 (by simpa using hl.symm)) h
  · split
    · exact ⟨_, rfl⟩
    · split <;> exact ⟨_, rfl⟩
  · dsimp only
    split <;> exact ⟨_, rfl⟩

theorem sigmoidAllParas_ok (M : MathFns K) {n b : ℕ} {o sg tv sv av T : K} {w x t : List K}
    (hw : w.length = n) (hp : 1 ≤ n) (hx : x.length = basisParams b (.sigmoidAllParas n o sg tv sv))
    (hg : t.length = b) :
    ∃ u, sigmoidAllParasShape M n o sg tv sv av b w x t T = .ok u ∧ u.length = b := by
  have hx : x.length = n + 1 + (if decide (tv > 1 / 10 ^ 10) = true then n else 0)
      + (if decide (sv > 1 / 10 ^ 10) = true then n else 0) := by simpa [basisParams] using hx
  have hz : (zeros n : List K).length = n := by simp [zeros]
  have fin : ∀ (A taus delSig : List K) (active closing : Bool), n + 1 ≤ A.length → taus.length = n →
      delSig.length = n →
      ∃ u, (limitSigmas M o sg T active taus delSig >>= fun sigmas =>
        sigmoidBuild M n o sg closing b A taus sigmas t T) = .ok u ∧ u.length = b := by
    intro A taus delSig active closing h1 h2 h3
    obtain ⟨sigmas, hs, hsl⟩ := limitSigmas_ok M o sg T active (taus := taus) (delSig := delSig) (by omega)
    refine ⟨t.map (sigmoidVal M n o sg closing A taus sigmas T), ?_, by simp [hg]⟩
    rw [hs]
    simp only [bind, Except.bind]
    exact sigmoidBuild_closed M o sg _ h1 (by omega) (by omega) hg
  have tauCase : ∀ delTau : List K, delTau.length = n →
      ∃ ts taus, iadd w delTau = pure ts ∧ rescaleTaus o T ts = pure taus ∧ taus.length = n := by
    intro delTau hd
    obtain ⟨taus, ht⟩ := rescaleTaus_ok o T (taus := List.zipWith (· + ·) w delTau)
      (by apply List.ne_nil_of_length_pos; rw [List.length_zipWith, hd, hw]; omega)
    have htl := rescaleTaus_length ht
    rw [List.length_zipWith, hd, hw, Nat.min_self] at htl
    exact ⟨_, taus, iadd_eq (by rw [hw, hd]), ht, htl⟩
  unfold sigmoidAllParasShape
  generalize decide (tv > 1 / 10 ^ 10) = tOn at hx ⊢
  generalize decide (sv > 1 / 10 ^ 10) = sOn at hx ⊢
  cases tOn <;> cases sOn <;>
    simp only [hw, Bool.or_self, Bool.or_true, Bool.or_false, Bool.false_eq_true, if_true, if_false, Bool.true_and,
      Bool.false_and, pure_bind] at hx ⊢
  · refine fin _ _ _ _ _ ?_ hw hz
    omega
  · refine fin _ _ _ _ _ ?_ hw ?_
    · simp only [List.length_take, hx]; omega
    · simp only [List.length_map, List.length_drop, hx]; omega
  · obtain ⟨ts, taus, h1, h2, h3⟩ := tauCase ((x.drop (n + 1)).map (fun y => y * tv / av))
      (by simp only [List.length_map, List.length_drop, hx]; omega)
    rw [h1]
    simp only [pure_bind, h2]
    refine fin _ _ _ _ _ ?_ h3 hz
    simp only [List.length_take, hx]; omega
  · obtain ⟨ts, taus, h1, h2, h3⟩ := tauCase (((x.drop (n + 1)).take n).map (fun y => y * tv / av))
      (by simp only [List.length_map, List.length_take, List.length_drop, hx]; omega)
    rw [h1]
    simp only [pure_bind, h2]
    refine fin _ _ _ _ _ ?_ h3 ?_
    · simp only [List.length_take, hx]; omega
    · simp only [List.length_map, List.length_drop, hx]; omega

/-- **C42** (enough). With exactly the declared number of coefficients every built-in basis builds an update pulse, and
it has `bins_number` samples. -/
theorem C42_declared_number_suffices {M : MathFns K} {d : PulseDict K} {p : Pulse K} (hr : PulseReach M d p)
    (hb : BuiltinBasis d.basis) (hp : PositiveBasis d.basis) {x : List K}
    (hx : x.length = p.nParams) (T : K) :
    ∃ q u, p.getBarePulse M x T = .ok (q, u) ∧ u.length = d.binsNumber := by
  obtain ⟨_, _, _, _, hbins, _, _, _, hbas⟩ := hr.fields
  obtain ⟨hw, hn, hav⟩ := hr.w_length
  rw [hn] at hx
  suffices h : ∃ u, (p.setInputs x T).shaped M = .ok u ∧ u.length = d.binsNumber by
    obtain ⟨u, h1, h2⟩ := h
    exact ⟨_, u, bare_of_shaped h1, h2⟩
  have hg : (linspace0 T p.binsNumber).length = p.binsNumber := by simp [linspace0]
  match hbd : d.basis with
  | .fourier n =>
    rw [hbd] at hw hx
    refine ⟨(linspace0 T p.binsNumber).map (fourierVal M n p.w x T), ?_, ?_⟩
    · simp only [Pulse.shaped, Pulse.setInputs, hbas, hbd]
      exact fourier_closed M hw (by rw [hx]; rfl) hg
    · rw [List.length_map, hg, hbins]
  | .chebyshev n =>
    rw [hbd] at hw hx
    refine ⟨(linspace0 T p.binsNumber).map (chebyshevVal M n p.w x T), ?_, ?_⟩
    · simp only [Pulse.shaped, Pulse.setInputs, hbas, hbd]
      exact chebyshev_closed M hw (by rw [hx]; rfl) hg
    · rw [List.length_map, hg, hbins]
  | .sinc n bm =>
    rw [hbd] at hw hx
    refine ⟨(linspace0 T p.binsNumber).map (sincVal M bm n p.w x T), ?_, ?_⟩
    · simp only [Pulse.shaped, Pulse.setInputs, hbas, hbd]
      exact sinc_closed M bm hw (by rw [hx]; rfl) hg
    · rw [List.length_map, hg, hbins]
  | .piecewise =>
    rw [hbd] at hx
    exact ⟨x, by simp only [Pulse.shaped, Pulse.setInputs, hbas, hbd], hx⟩
  | .sigmoid n o sg =>
    rw [hbd] at hw hx
    have hw : p.w.length = n := hw
    refine ⟨(linspace0 T p.binsNumber).map (sigmoidVal M n o sg true x p.w (List.replicate n sg) T), ?_, ?_⟩
    · simp only [Pulse.shaped, Pulse.setInputs, hbas, hbd]
      rw [sigmoidShape_eq_build M n o sg _ _ _ _ _ hw]
      exact sigmoidBuild_closed M o sg true (by rw [hx]; rfl) (by rw [hw]) (by simp) hg
    · rw [List.length_map, hg, hbins]
  | .sigmoidTimeDep n o sg tv =>
    rw [hbd] at hw hx hp
    have hw : p.w.length = n := hw
    have hx : x.length = 2 * n + 1 := hx
    have hp : 1 ≤ n := hp
    have hdl : ((x.drop ((x.length + 1) / 2)).map (fun y => y * tv / p.amplitudeVariation)).length = n := by
      simp only [List.length_map, List.length_drop, hx]; omega
    obtain ⟨taus, ht⟩ := rescaleTaus_ok o T (taus := List.zipWith (· + ·) p.w
      ((x.drop ((x.length + 1) / 2)).map (fun y => y * tv / p.amplitudeVariation)))
      (by apply List.ne_nil_of_length_pos; rw [List.length_zipWith, hdl, hw]; omega)
    have htl := rescaleTaus_length ht
    rw [List.length_zipWith, hdl, hw, Nat.min_self] at htl
    refine ⟨(linspace0 T p.binsNumber).map (sigmoidVal M n o sg true (x.take ((x.length + 1) / 2)) taus
      (List.replicate n sg) T), ?_, by rw [List.length_map, hg, hbins]⟩
    simp only [Pulse.shaped, Pulse.setInputs, hbas, hbd, sigmoidTimeDepShape]
    rw [bop_eq (by rw [hdl, hw])]
    simp only [bind, Except.bind]
    rw [ht]
    simp only
    exact sigmoidBuild_closed M o sg true (by simp only [List.length_take, hx]; omega) (by omega) (by simp) hg
  | .sigmoidSigmas n o sg sv =>
    rw [hbd] at hw hx hp
    have hw : p.w.length = n := hw
    have hx : x.length = 2 * n + 1 := hx
    have hdl : ((x.drop ((x.length + 1) / 2)).map (fun y => |y| * sv)).length = n := by
      simp only [List.length_map, List.length_drop, hx]; omega
    obtain ⟨sigmas, hs, hsl⟩ := limitSigmas_ok M o sg T (decide (o ≥ 1 / 10 ^ 10)) (taus := p.w)
      (delSig := (x.drop ((x.length + 1) / 2)).map (fun y => |y| * sv)) (by rw [hdl, hw])
    rw [hdl] at hsl
    refine ⟨(linspace0 T p.binsNumber).map (sigmoidVal M n o sg true (x.take ((x.length + 1) / 2)) p.w
      sigmas T), ?_, by rw [List.length_map, hg, hbins]⟩
    simp only [Pulse.shaped, Pulse.setInputs, hbas, hbd, sigmoidSigmasShape]
    rw [hs]
    simp only [bind, Except.bind]
    exact sigmoidBuild_closed M o sg true (by simp only [List.length_take, hx]; omega) (by omega) (by omega) hg
  | .sigmoidAllParas n o sg tv sv =>
    rw [hbd] at hw hx hp
    simp only [Pulse.shaped, Pulse.setInputs, hbas, hbd]
    rw [← hbins]
    exact sigmoidAllParas_ok M hw hp hx hg
  | .walsh n => rw [hbd] at hb; exact hb.elim
  | .custom _ _ _ => rw [hbd] at hb; exact hb.elim

/-- Bases that index their coefficient array. -/
def IndexedBasis : Basis K → Prop
  | .fourier n => 1 ≤ n
  | .chebyshev n => 1 ≤ n
  | .sinc n _ => 1 ≤ n
  | .sigmoid _ _ _ => True
  | .sigmoidTimeDep n _ _ _ => 1 ≤ n
  | .sigmoidSigmas n _ _ _ => 1 ≤ n
  | _ => False

theorem sigmoidBuild_needs {M : MathFns K} {n b : ℕ} {offset sigma : K} {closing : Bool} {A taus sigmas t : List K}
    {T : K} {u : List K} (h : sigmoidBuild M n offset sigma closing b A taus sigmas t T = .ok u) : n + 1 ≤ A.length := by
  unfold sigmoidBuild at h
  obtain ⟨q, h1, h⟩ := py_bind_ok.1 h
  obtain ⟨a0, h2, _⟩ := py_bind_ok.1 h
  have h0 : 0 < A.length := (List.getElem?_eq_some_iff.1 (getIdx_ok.1 h2)).1
  cases n with
  | zero => omega
  | succ n =>
    obtain ⟨v, hv⟩ := sumTerms_ok h1 n (by omega)
    obtain ⟨a, ha, _⟩ := py_bind_ok.1 hv
    have := (List.getElem?_eq_some_iff.1 (getIdx_ok.1 ha)).1
    omega

/-- **C42** (needed). With fewer coefficients than declared no update pulse is produced: the last declared
coefficient is really read. -/
theorem C42_fewer_coefficients_fail {M : MathFns K} {d : PulseDict K} {p : Pulse K} (hr : PulseReach M d p)
    (hb : IndexedBasis d.basis) {x : List K} (hx : x.length < p.nParams) (T : K) :
    ∀ q u, p.getBarePulse M x T ≠ .ok (q, u) := by
  intro q u h
  obtain ⟨_, _, _, _, hbins, _, _, _, hbas⟩ := hr.fields
  obtain ⟨hw, hn, hav⟩ := hr.w_length
  rw [hn] at hx
  unfold Pulse.getBarePulse at h
  obtain ⟨v, hv, _⟩ := py_bind_ok.1 h
  match hbd : d.basis with
  | .fourier n =>
    rw [hbd] at hx hb
    have hx : x.length < 2 * n := hx
    have hb : 1 ≤ n := hb
    simp only [Pulse.shaped, Pulse.setInputs, hbas, hbd] at hv
    obtain ⟨w, hw⟩ := sumTerms_ok hv (n - 1) (by omega)
    unfold fourierTerm at hw
    obtain ⟨_, _, hw⟩ := py_bind_ok.1 hw
    obtain ⟨_, h2, hw⟩ := py_bind_ok.1 hw
    have := (List.getElem?_eq_some_iff.1 (getIdx_ok.1 h2)).1
    omega
  | .chebyshev n =>
    rw [hbd] at hx hb
    have hx : x.length < 2 * n := hx
    have hb : 1 ≤ n := hb
    simp only [Pulse.shaped, Pulse.setInputs, hbas, hbd] at hv
    obtain ⟨w, hw⟩ := sumTerms_ok hv (n - 1) (by omega)
    unfold chebyshevTerm at hw
    obtain ⟨_, _, hw⟩ := py_bind_ok.1 hw
    obtain ⟨_, _, hw⟩ := py_bind_ok.1 hw
    obtain ⟨_, h2, hw⟩ := py_bind_ok.1 hw
    have := (List.getElem?_eq_some_iff.1 (getIdx_ok.1 h2)).1
    omega
  | .sinc n bm =>
    rw [hbd] at hx hb
    have hx : x.length < n := hx
    have hb : 1 ≤ n := hb
    simp only [Pulse.shaped, Pulse.setInputs, hbas, hbd] at hv
    obtain ⟨w, hw⟩ := sumTerms_ok hv (n - 1) (by omega)
    unfold sincTerm at hw
    obtain ⟨_, h2, hw⟩ := py_bind_ok.1 hw
    have := (List.getElem?_eq_some_iff.1 (getIdx_ok.1 h2)).1
    omega
  | .sigmoid n o sg =>
    rw [hbd] at hx hb hw
    have hx : x.length < n + 1 := hx
    have hw : p.w.length = n := hw
    simp only [Pulse.shaped, Pulse.setInputs, hbas, hbd] at hv
    rw [sigmoidShape_eq_build M n o sg _ _ _ _ _ hw] at hv
    have := sigmoidBuild_needs hv
    omega
  | .sigmoidTimeDep n o sg tv =>
    rw [hbd] at hx hb
    have hx : x.length < 2 * n + 1 := hx
    simp only [Pulse.shaped, Pulse.setInputs, hbas, hbd, sigmoidTimeDepShape] at hv
    obtain ⟨_, _, hv⟩ := py_bind_ok.1 hv
    obtain ⟨_, _, hv⟩ := py_bind_ok.1 hv
    have := sigmoidBuild_needs hv
    simp only [List.length_take] at this
    omega
  | .sigmoidSigmas n o sg sv =>
    rw [hbd] at hx hb
    have hx : x.length < 2 * n + 1 := hx
    simp only [Pulse.shaped, Pulse.setInputs, hbas, hbd, sigmoidSigmasShape] at hv
    obtain ⟨_, _, hv⟩ := py_bind_ok.1 hv
    have := sigmoidBuild_needs hv
    simp only [List.length_take] at this
    omega
  | .piecewise => rw [hbd] at hb; exact hb.elim
  | .sigmoidAllParas _ _ _ _ _ => rw [hbd] at hb; exact hb.elim
  | .walsh _ => rw [hbd] at hb; exact hb.elim
  | .custom _ _ _ => rw [hbd] at hb; exact hb.elim

/-- The hypotheses of both C42 theorems are met by every sigmoid variant used below. -/
example : ∃ p, PulseReach exFns { exDict with basis := .sigmoidAllParas 2 1 1 1 1 } p ∧ p.nParams = 7 := by
  have h : (do let p ← mkPulse exFns (-1) { exDict with basis := .sigmoidAllParas 2 1 1 1 1 }; pure p.nParams)
      = (.ok 7 : Py ℕ) := by decide +kernel
  obtain ⟨p, h1, h⟩ := py_bind_ok.1 h
  exact ⟨p, .create h1, py_pure_ok.1 h⟩

example : ∃ p, PulseReach exFns exDict p ∧ IndexedBasis exDict.basis ∧ [(1 : ℚ), 2, 3].length < p.nParams := by
  have h : (do let p ← mkPulse exFns (-1) exDict; pure p.nParams) = (.ok 4 : Py ℕ) := by decide +kernel
  obtain ⟨p, h1, h⟩ := py_bind_ok.1 h
  refine ⟨p, .create h1, by show (1:ℕ) ≤ 2; omega, ?_⟩
  rw [py_pure_ok.1 h]; decide

end
end QuOCS

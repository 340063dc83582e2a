/-
C40, C41, C42, C54: random super-parameters and basis expansions.
-/
import Verif.Lemmas.Bases

set_option linter.unusedSectionVars false

namespace QuOCS

section
variable {K : Type*} [Field K] [LinearOrder K] [IsStrictOrderedRing K]

/-! ### C40 -/

/-- **C40.** For random numbers in `[0, 1)` (as produced by `rand`) the drawn super-parameters are one per equal bin of
`[lower, upper]`: the `i`-th lies in the `i`-th bin; hence all lie in the range, and they are strictly increasing. -/
theorem C40_super_parameters_one_per_bin {p q : Pulse K} {rnd : List K}
    (hlu : p.wLower < p.wUpper) (h01 : ∀ r ∈ rnd, 0 ≤ r ∧ r < 1) (h : p.drawSuper rnd = .ok q) :
    q.w.length = basisSuper p.basis ∧
    (∀ (i : ℕ) (v : K), q.w[i]? = some v →
      p.wLower + i * ((p.wUpper - p.wLower) / (basisSuper p.basis : K)) ≤ v ∧
      v < p.wLower + (i + 1) * ((p.wUpper - p.wLower) / (basisSuper p.basis : K))) ∧
    (∀ v ∈ q.w, p.wLower ≤ v ∧ v < p.wUpper) ∧
    (∀ (i j : ℕ) (v v' : K), i < j → q.w[i]? = some v → q.w[j]? = some v' → v < v') := by
  unfold Pulse.drawSuper at h
  obtain ⟨w, hw, h⟩ := py_bind_ok.1 h
  rw [py_pure_ok] at h
  subst h
  obtain ⟨hl, hv⟩ := uniformDraw_ok hw
  set n := basisSuper p.basis
  simp only
  have hbin : ∀ (i : ℕ) (v : K), w[i]? = some v →
      i < n ∧ p.wLower + i * ((p.wUpper - p.wLower) / (n : K)) ≤ v ∧
      v < p.wLower + (i + 1) * ((p.wUpper - p.wLower) / (n : K)) := by
    intro i v hi
    have hin : i < n := by
      obtain ⟨h, _⟩ := List.getElem?_eq_some_iff.1 hi
      omega
    obtain ⟨r, hr, hwi⟩ := hv i hin
    rw [hi] at hwi
    have hr' := h01 r (List.mem_of_getElem? hr)
    have hnpos : (0 : K) < n := by exact_mod_cast (show 0 < n by omega)
    have hk : 0 < (p.wUpper - p.wLower) / (n : K) := div_pos (by linarith) hnpos
    have e := Option.some.inj hwi
    refine ⟨hin, ?_, ?_⟩
    · rw [e]; have := mul_nonneg hk.le hr'.1; linarith
    · rw [e]
      have := mul_lt_mul_of_pos_left hr'.2 hk
      linarith
  have hk : ∀ i : ℕ, i < n → p.wLower + ((i : K) + 1) * ((p.wUpper - p.wLower) / (n : K)) ≤ p.wUpper := by
    intro i hi
    have hnpos : (0 : K) < n := by exact_mod_cast (show 0 < n by omega)
    have h1 : ((i : K) + 1) ≤ n := by exact_mod_cast hi
    have h2 : 0 < (p.wUpper - p.wLower) / (n : K) := div_pos (by linarith) hnpos
    have h3 := mul_le_mul_of_nonneg_right h1 h2.le
    rw [mul_div_cancel₀ _ hnpos.ne'] at h3
    linarith
  refine ⟨hl, fun i v hi => (hbin i v hi).2, ?_, ?_⟩
  · intro v hv'
    obtain ⟨i, hi⟩ := List.getElem?_of_mem hv'
    obtain ⟨h1, h2, h3⟩ := hbin i v hi
    have hnpos : (0 : K) < n := by exact_mod_cast (show 0 < n by omega)
    have h4 : 0 < (p.wUpper - p.wLower) / (n : K) := div_pos (by linarith) hnpos
    constructor
    · have := mul_nonneg (Nat.cast_nonneg (α := K) i) h4.le
      linarith
    · linarith [hk i h1]
  · intro i j v v' hij hi hj
    obtain ⟨h1, _, h2⟩ := hbin i v hi
    obtain ⟨h3, h4, _⟩ := hbin j v' hj
    have hnpos : (0 : K) < n := by exact_mod_cast (show 0 < n by omega)
    have h5 : 0 < (p.wUpper - p.wLower) / (n : K) := div_pos (by linarith) hnpos
    have h6 : ((i : K) + 1) ≤ j := by exact_mod_cast hij
    have := mul_le_mul_of_nonneg_right h6 h5.le
    linarith

/-- The hypotheses of C40 are met by a draw of two frequencies, in the bins `[0,2)` and `[2,4)`. -/
example : ∃ p q, PulseReach exFns exDict p ∧ p.wLower < p.wUpper ∧ (∀ r ∈ [(1 : ℚ) / 2, 1 / 4], 0 ≤ r ∧ r < 1) ∧
    p.drawSuper [1 / 2, 1 / 4] = .ok q ∧ q.w = [1, 5 / 2] := by
  have h : (do let p ← mkPulse exFns (-1) exDict; let q ← p.drawSuper [1 / 2, 1 / 4]; pure (p.wLower, p.wUpper, q.w))
      = (.ok (0, 4, [1, 5 / 2]) : Py (ℚ × ℚ × List ℚ)) := by decide +kernel
  obtain ⟨p, h1, h⟩ := py_bind_ok.1 h
  obtain ⟨q, h2, h⟩ := py_bind_ok.1 h
  rw [py_pure_ok] at h
  simp only [Prod.mk.injEq] at h
  refine ⟨p, q, .create h1, by rw [h.1, h.2.1]; norm_num, ?_, h2, h.2.2⟩
  intro r hr
  simp only [List.mem_cons, List.not_mem_nil, or_false] at hr
  rcases hr with rfl | rfl <;> norm_num

/-! ### C41 -/

/-- The bases whose update pulse is linear in all coefficients. -/
def LinearBasis : Basis K → Prop
  | .fourier _ => True
  | .sinc _ _ => True
  | .piecewise => True
  | .sigmoid _ _ _ => True
  | _ => False

theorem lincomb_map (a b : K) (f g : K → K) (t : List K) :
    lincomb a b (t.map f) (t.map g) = t.map (fun s => a * f s + b * g s) := zipWith_map_same _ f g t

theorem bare_of_shaped {M : MathFns K} {p : Pulse K} {x u : List K} {T : K}
    (h : (p.setInputs x T).shaped M = .ok u) : p.getBarePulse M x T = .ok (p.setInputs x T, u) := by
  simp [Pulse.getBarePulse, h, bind, Except.bind, pure, Except.pure]

theorem setInputs_grid (p : Pulse K) (x : List K) (T : K) :
    (p.setInputs x T).timeGrid.length = p.binsNumber := by simp [Pulse.setInputs, linspace0]

/-- **C41.** For the Fourier, Sinc, piecewise and Sigmoid bases the update pulse of `a*X + b*Y` is
`a * (update of X) + b * (update of Y)`, sample by sample, for all coefficient vectors of the declared length. -/
theorem C41_update_is_linear {M : MathFns K} {d : PulseDict K} {p : Pulse K} (hr : PulseReach M d p)
    (hlin : LinearBasis d.basis) {X Y : List K} (hX : X.length = basisParams d.binsNumber d.basis)
    (hY : Y.length = basisParams d.binsNumber d.basis) (a b T : K) :
    ∃ u v qu qv q, p.getBarePulse M X T = .ok (qu, u) ∧ p.getBarePulse M Y T = .ok (qv, v) ∧
      p.getBarePulse M (lincomb a b X Y) T = .ok (q, lincomb a b u v) ∧
      u.length = d.binsNumber ∧ v.length = d.binsNumber := by
  obtain ⟨_, _, _, _, hbins, _, _, _, hbas⟩ := hr.fields
  obtain ⟨hw, _⟩ := hr.w_length
  have hZ : (lincomb a b X Y).length = basisParams d.binsNumber d.basis := by simp [lincomb, hX, hY]
  have hg := fun x => setInputs_grid p x T
  have hgd : ∀ i, (lincomb a b X Y).getD i 0 = a * X.getD i 0 + b * Y.getD i 0 := by
    intro i
    exact getD_zipWith_eq (f := fun s t => a * s + b * t) (by rw [hX, hY]) (by simp) i
  have fin : ∀ (f : List K → K → K),
      (∀ Z, Z.length = basisParams d.binsNumber d.basis →
        (p.setInputs Z T).shaped M = .ok ((linspace0 T p.binsNumber).map (f Z))) →
      (∀ s, f (lincomb a b X Y) s = a * f X s + b * f Y s) →
      ∃ u v qu qv q, p.getBarePulse M X T = .ok (qu, u) ∧ p.getBarePulse M Y T = .ok (qv, v) ∧
      p.getBarePulse M (lincomb a b X Y) T = .ok (q, lincomb a b u v) ∧
      u.length = d.binsNumber ∧ v.length = d.binsNumber := by
    intro f h1 h2
    refine ⟨_, _, _, _, p.setInputs (lincomb a b X Y) T, bare_of_shaped (h1 X hX), bare_of_shaped (h1 Y hY),
      ?_, ?_, ?_⟩
    · rw [bare_of_shaped (h1 _ hZ), lincomb_map]
      congr 2
      apply List.map_congr_left
      intro s _; exact h2 s
    · simp [linspace0, hbins]
    · simp [linspace0, hbins]
  match hb : d.basis with
  | .fourier n =>
    rw [hb] at hw hX hY hZ
    apply fin (fun Z => fourierVal M n p.w Z T)
    · intro Z hZ
      rw [hb] at hZ
      simp only [Pulse.shaped, Pulse.setInputs, hbas, hb]
      exact fourier_closed M hw (by rw [hZ]; simp [basisParams]) (by simp [linspace0])
    · intro s
      simp only [fourierVal, hgd, Finset.mul_sum]
      rw [← Finset.sum_add_distrib]
      apply Finset.sum_congr rfl
      intro i _; ring
  | .sinc n bm =>
    rw [hb] at hw hX hY hZ
    apply fin (fun Z => sincVal M bm n p.w Z T)
    · intro Z hZ
      rw [hb] at hZ
      simp only [Pulse.shaped, Pulse.setInputs, hbas, hb]
      exact sinc_closed M bm hw (by rw [hZ]; simp [basisParams]) (by simp [linspace0])
    · intro s
      simp only [sincVal, hgd, Finset.mul_sum]
      rw [← Finset.sum_add_distrib]
      apply Finset.sum_congr rfl
      intro i _; ring
  | .piecewise =>
    rw [hb] at hX hY hZ
    have h1 : ∀ Z, (p.setInputs Z T).shaped M = .ok Z := by
      intro Z; simp only [Pulse.shaped, Pulse.setInputs, hbas, hb]
    exact ⟨X, Y, _, _, _, bare_of_shaped (h1 X), bare_of_shaped (h1 Y), bare_of_shaped (h1 _), hX, hY⟩
  | .sigmoid n o sg =>
    rw [hb] at hw hX hY hZ
    apply fin (fun Z => sigmoidVal M n o sg true Z p.w (List.replicate n sg) T)
    · intro Z hZ
      rw [hb] at hZ
      simp only [Pulse.shaped, Pulse.setInputs, hbas, hb]
      rw [sigmoidShape_eq_build M n o sg _ _ _ _ _ hw]
      exact sigmoidBuild_closed M o sg true (by rw [hZ]; simp [basisParams]) (by rw [hw]; rfl) (by simp)
        (by simp [linspace0])
    · intro s
      have hsum : (lincomb a b X Y).sum = a * X.sum + b * Y.sum := sum_zipWith_lin a b X Y (by rw [hX, hY])
      simp only [sigmoidVal, hgd, hsum, if_true]
      have : ∀ (S : ℕ → K), ∑ i ∈ Finset.range n, (a * X.getD (i + 1) 0 + b * Y.getD (i + 1) 0) / 2 * S i
          = a * ∑ i ∈ Finset.range n, X.getD (i + 1) 0 / 2 * S i + b * ∑ i ∈ Finset.range n, Y.getD (i + 1) 0 / 2 * S i := by
        intro S
        simp only [Finset.mul_sum]
        rw [← Finset.sum_add_distrib]
        apply Finset.sum_congr rfl
        intro i _; ring
      rw [this]; ring
  | .chebyshev n => rw [hb] at hlin; exact hlin.elim
  | .walsh n => rw [hb] at hlin; exact hlin.elim
  | .sigmoidTimeDep _ _ _ _ => rw [hb] at hlin; exact hlin.elim
  | .sigmoidSigmas _ _ _ _ => rw [hb] at hlin; exact hlin.elim
  | .sigmoidAllParas _ _ _ _ _ => rw [hb] at hlin; exact hlin.elim
  | .custom _ _ _ => rw [hb] at hlin; exact hlin.elim

/-- **C41** (zero update). Zero coefficients give the zero update pulse, for the linear bases and for Chebyshev. -/
theorem C41_zero_coefficients_zero_update {M : MathFns K} {d : PulseDict K} {p : Pulse K} (hr : PulseReach M d p)
    (hlin : LinearBasis d.basis ∨ ∃ n, d.basis = .chebyshev n) (T : K) :
    ∃ q, p.getBarePulse M (zeros (basisParams d.binsNumber d.basis)) T = .ok (q, zeros d.binsNumber) := by
  rcases hlin with hlin | ⟨n, hb⟩
  · have hz : (zeros (basisParams d.binsNumber d.basis) : List K).length = basisParams d.binsNumber d.basis := by
      simp [zeros]
    obtain ⟨u, v, qu, qv, q, h1, _, h3, hu, hv⟩ := C41_update_is_linear hr hlin hz hz 0 0 T
    have e : lincomb 0 0 (zeros (basisParams d.binsNumber d.basis)) (zeros (basisParams d.binsNumber d.basis) : List K)
        = zeros (basisParams d.binsNumber d.basis) := by
      simp [lincomb, zeros, List.zipWith_replicate]
    rw [e] at h3
    refine ⟨q, ?_⟩
    rw [h3]
    congr 2
    apply List.ext_getElem
    · simp [lincomb, hu, hv, zeros]
    · intro i h1 h2; simp [lincomb, zeros]
  · obtain ⟨_, _, _, _, hbins, _, _, _, hbas⟩ := hr.fields
    obtain ⟨hw, _⟩ := hr.w_length
    rw [hb] at hw
    have hw : p.w.length = n := hw
    refine ⟨_, bare_of_shaped (u := zeros d.binsNumber) ?_⟩
    simp only [Pulse.shaped, Pulse.setInputs, hbas, hb]
    rw [chebyshev_closed M hw (by simp [zeros, basisParams]) (by simp only [linspace0, List.length_map, List.length_range])]
    congr 1
    have hzd : ∀ (m i : ℕ), (zeros m : List K).getD i 0 = 0 := by
      intro m i
      simp only [zeros, List.getD_eq_getElem?_getD, List.getElem?_replicate]
      split <;> rfl
    apply List.ext_getElem
    · simp [linspace0, zeros, hbins]
    · intro i h1 h2
      simp only [List.getElem_map, chebyshevVal, hzd, zero_mul, Finset.sum_const_zero]
      simp [zeros]

/-- **C41** (Chebyshev is not linear): its second coefficient enters as a phase, so the update pulse of the sum of two
coefficient vectors is not the sum of the update pulses. -/
theorem C41_chebyshev_not_linear :
    ∃ (d : PulseDict ℚ) (p : Pulse ℚ) (X Y u v w : List ℚ) (qu qv qw : Pulse ℚ), PulseReach exFns d p ∧
      d.basis = .chebyshev 1 ∧ p.getBarePulse exFns X 2 = .ok (qu, u) ∧ p.getBarePulse exFns Y 2 = .ok (qv, v) ∧
      p.getBarePulse exFns (lincomb 1 1 X Y) 2 = .ok (qw, w) ∧ w ≠ lincomb 1 1 u v := by
  let d : PulseDict ℚ := { exDict with basis := .chebyshev 1 }
  have h : (do
      let p ← mkPulse exFns (-1) d
      let a ← p.getBarePulse exFns [1, 0] 2
      let b ← p.getBarePulse exFns [0, 1] 2
      let c ← p.getBarePulse exFns (lincomb 1 1 [1, 0] [0, 1]) 2
      pure (a.2, b.2, c.2)) = (.ok ([1, 1, 1], [0, 0, 0], [0, 0, 0]) : Py (List ℚ × List ℚ × List ℚ)) := by
    decide +kernel
  obtain ⟨p, h1, h⟩ := py_bind_ok.1 h
  obtain ⟨⟨qa, ua⟩, h2, h⟩ := py_bind_ok.1 h
  obtain ⟨⟨qb, ub⟩, h3, h⟩ := py_bind_ok.1 h
  obtain ⟨⟨qc, uc⟩, h4, h⟩ := py_bind_ok.1 h
  rw [py_pure_ok] at h
  simp only [Prod.mk.injEq] at h
  obtain ⟨rfl, rfl, rfl⟩ := h
  exact ⟨d, p, _, _, _, _, _, qa, qb, qc, .create h1, rfl, h2, h3, h4, by decide +kernel⟩

/-- The hypotheses of C41 are met (Fourier basis, two frequencies). -/
example : ∃ p, PulseReach exFns exDict p ∧ LinearBasis exDict.basis ∧
    [(1 : ℚ), 2, 3, 4].length = basisParams exDict.binsNumber exDict.basis := by
  have h : ∃ p, mkPulse exFns (-1) exDict = .ok p := ⟨_, rfl⟩
  obtain ⟨p, h⟩ := h
  exact ⟨p, .create h, trivial, rfl⟩

/-! ### C54 (step times of sigmoid pulses) -/

theorem rescaleTaus_length {offset T : K} {taus r : List K} (h : rescaleTaus offset T taus = .ok r) :
    r.length = taus.length := by
  unfold rescaleTaus at h
  have hp := List.perm_insertionSort (· ≤ ·) taus
  have hlen := hp.length_eq
  split at h
  · simp at h
  · rename_i x hx
    rw [hx] at hlen
    split at h
    · simp only [Except.ok.injEq] at h; subst h; simpa using hlen
    · split at h
      · simp only [Except.ok.injEq] at h; subst h; simpa using hlen
      · simp only [Except.ok.injEq] at h; subst h; rfl
  · dsimp only at h
    split at h
    · have := Except.ok.inj h; subst this; simp
    · have := Except.ok.inj h; subst this; rfl

/-- **C54.** "Making sure the time steps don't move outside of the pulse": after the rescaling of the optimized step
times every step lies in `[offset, T - offset]` (given that this interval is not empty), and no two step times change
their order. -/
theorem C54_step_times_inside {offset T : K} {taus r : List K} (hT : offset ≤ T - offset)
    (h : rescaleTaus offset T taus = .ok r) :
    r.length = taus.length ∧ (∀ τ ∈ r, offset ≤ τ ∧ τ ≤ T - offset) ∧
    (∀ (i j : ℕ) (a b a' b' : K), taus[i]? = some a → taus[j]? = some b → r[i]? = some a' → r[j]? = some b' →
      a ≤ b → a' ≤ b') := by
  refine ⟨rescaleTaus_length h, ?_⟩
  unfold rescaleTaus at h
  have hp := List.perm_insertionSort (· ≤ ·) taus
  have hsrt := List.pairwise_insertionSort (· ≤ ·) taus
  split at h
  · simp at h
  · rename_i x hx
    rw [hx] at hp
    have ht : taus = [x] := List.perm_singleton.1 hp.symm
    subst ht
    have key : ∀ y : K, r = [y] → offset ≤ y → y ≤ T - offset →
        (∀ τ ∈ r, offset ≤ τ ∧ τ ≤ T - offset) ∧
        (∀ (i j : ℕ) (a b a' b' : K), [x][i]? = some a → [x][j]? = some b → r[i]? = some a' → r[j]? = some b' →
          a ≤ b → a' ≤ b') := by
      rintro y rfl h1 h2
      refine ⟨by intro τ hτ; simp only [List.mem_singleton] at hτ; subst hτ; exact ⟨h1, h2⟩, ?_⟩
      intro i j a b a' b' _ _ h3 h4 _
      have e1 := List.mem_of_getElem? h3
      have e2 := List.mem_of_getElem? h4
      simp only [List.mem_singleton] at e1 e2
      rw [e1, e2]
    split at h
    · exact key _ (Except.ok.inj h).symm le_rfl hT
    · split at h
      · exact key _ (Except.ok.inj h).symm hT le_rfl
      · rename_i h1 h2
        exact key _ (Except.ok.inj h).symm (not_lt.1 h1) (not_lt.1 h2)
  · rename_i s0 s1 rest hx
    rw [hx] at hp hsrt
    simp only at h
    set sN := (s1 :: rest).getLast (by simp) with hsN
    have hmin : ∀ τ ∈ taus, s0 ≤ τ := by
      intro τ hτ
      have := hp.mem_iff.2 hτ
      rcases List.mem_cons.1 this with rfl | hm
      · exact le_rfl
      · have := List.rel_of_pairwise_cons hsrt hm
        simpa using this
    have hmax : ∀ τ ∈ taus, τ ≤ sN := by
      intro τ hτ
      have hm := hp.mem_iff.2 hτ
      have hd : s0 :: s1 :: rest = (s0 :: s1 :: rest).dropLast ++ [sN] := by
        rw [hsN]
        have := List.dropLast_append_getLast (l := s0 :: s1 :: rest) (by simp)
        rw [List.getLast_cons (by simp)] at this
        exact this.symm
      rw [hd] at hm hsrt
      rcases List.mem_append.1 hm with hm | hm
      · have := (List.pairwise_append.1 hsrt).2.2 τ hm sN (by simp)
        simpa using this
      · simp only [List.mem_singleton] at hm; rw [hm]
    split at h
    · rename_i hc
      set sN' := (if sN < T - offset then T - offset else sN) with hsN'
      set s0' := (if s0 > offset then offset else s0) with hs0'
      have e1 : T - offset ≤ sN' := by rw [hsN']; split; exacts [le_rfl, not_lt.1 ‹_›]
      have e2 : sN ≤ sN' := by rw [hsN']; split; exacts [le_of_lt ‹_›, le_rfl]
      have e3 : s0' ≤ offset := by rw [hs0']; split; exacts [le_rfl, not_lt.1 ‹_›]
      have e4 : s0' ≤ s0 := by rw [hs0']; split; exacts [le_of_lt ‹_›, le_rfl]
      have hlt : s0' < sN' := by
        rcases hc with hc | hc
        · linarith
        · linarith
      have hd : 0 < sN' - s0' := by linarith
      have hk : 0 ≤ 2 * (T / 2 - offset) / (sN' - s0') := div_nonneg (by linarith) hd.le
      have hkd : 2 * (T / 2 - offset) / (sN' - s0') * (sN' - s0') = T - 2 * offset := by
        rw [div_mul_cancel₀ _ hd.ne']; ring
      have hform : ∀ τ : K, T / 2 + (τ - (sN' - s0') / 2 - s0') * 2 * (T / 2 - offset) / (sN' - s0')
          = offset + (2 * (T / 2 - offset) / (sN' - s0')) * (τ - s0') := by
        intro τ
        field_simp
        ring
      have hr := (Except.ok.inj h).symm
      simp only [hform] at hr
      subst hr
      refine ⟨?_, ?_⟩
      · intro τ' hτ'
        obtain ⟨τ, hτ, rfl⟩ := List.mem_map.1 hτ'
        have h1 := hmin τ hτ
        have h2 := hmax τ hτ
        have h3 : 0 ≤ 2 * (T / 2 - offset) / (sN' - s0') * (τ - s0') := mul_nonneg hk (by linarith)
        have h4 : 2 * (T / 2 - offset) / (sN' - s0') * (τ - s0') ≤ 2 * (T / 2 - offset) / (sN' - s0') * (sN' - s0') :=
          mul_le_mul_of_nonneg_left (by linarith) hk
        rw [hkd] at h4
        constructor <;> linarith
      · intro i j a b a' b' hi hj hi' hj' hab
        simp only [List.getElem?_map, hi, hj, Option.map_some, Option.some.injEq] at hi' hj'
        subst hi' hj'
        have := mul_le_mul_of_nonneg_left (show a - s0' ≤ b - s0' by linarith) hk
        linarith
    · rename_i hc
      push Not at hc
      have hr := (Except.ok.inj h).symm
      subst hr
      refine ⟨fun τ hτ => ⟨le_trans hc.1 (hmin τ hτ), le_trans (hmax τ hτ) hc.2⟩, ?_⟩
      intro i j a b a' b' hi hj hi' hj' hab
      rw [hi] at hi'; rw [hj] at hj'
      cases hi'; cases hj'; exact hab

/-- The hypotheses of C54 are met with step times beyond both ends. -/
example : (1 : ℚ) ≤ 10 - 1 ∧ rescaleTaus (1 : ℚ) 10 [12, -4, 4] = .ok [9, 1, 5] := by
  constructor
  · norm_num
  · decide +kernel

end
end QuOCS

import Verif.Spec.Steps
import Verif.Props.BasisFormulas
import Verif.Props.BasisCounts

/-!
# C101: the sigmoid bases with optimized step times and widths
-/
set_option linter.unusedSectionVars false
set_option linter.unusedVariables false
namespace QuOCS
open Finset

section
variable {M : MathFns ℝ} {d : PulseDict ℝ} {p : Pulse ℝ} {X : List ℝ} {n : ℕ}

theorem getD_of_getElem? {l : List ℝ} {i : ℕ} (h : i < l.length) : l[i]? = some (l.getD i 0) := by
  rw [List.getD_eq_getElem?_getD, List.getElem?_eq_getElem h]; rfl

theorem moved_inside {offset T : ℝ} {ts taus : List ℝ} (h : rescaleTaus offset T ts = .ok taus) :
    MovedInside ts.length offset T (fun i => ts.getD i 0) (fun i => taus.getD i 0) := by
  have hl := rescaleTaus_length h
  refine ⟨fun hin i hi => ?_, fun hT i hi => ?_, fun hT i hi j hj hij => ?_⟩
  · have hmem : ∀ x ∈ ts.insertionSort (· ≤ ·), offset ≤ x ∧ x ≤ T - offset := by
      intro x hx
      rw [List.mem_insertionSort] at hx
      obtain ⟨k, hk, rfl⟩ := List.getElem_of_mem hx
      have := hin k hk
      rwa [List.getD_eq_getElem?_getD, List.getElem?_eq_getElem hk] at this
    suffices taus = ts by rw [this]
    unfold rescaleTaus at h
    split at h
    · cases h
    · rename_i x hx
      have := hmem x (by rw [hx]; simp)
      rw [if_neg (by linarith [this.1]), if_neg (by linarith [this.2])] at h
      exact (Except.ok.inj h).symm
    · rename_i s0 s1 rest hx
      have h0 := hmem s0 (by rw [hx]; simp)
      have h1 := hmem ((s1 :: rest).getLast (by simp)) (by rw [hx]; exact List.mem_cons_of_mem _ (List.getLast_mem _))
      dsimp only at h
      rw [if_neg (by rintro (h | h) <;> linarith [h0.1, h1.2])] at h
      exact (Except.ok.inj h).symm
  · exact (C54_step_times_inside hT h).2.1 _ (by
      rw [List.getD_eq_getElem?_getD, List.getElem?_eq_getElem (by omega)]; exact List.getElem_mem _)
  · exact (C54_step_times_inside hT h).2.2 i j _ _ _ _ (getD_of_getElem? hi) (getD_of_getElem? hj) (getD_of_getElem? (by omega))
      (getD_of_getElem? (by omega)) hij

theorem mapM_values {α β : Type} {f : α → Py β} {g : α → β} : ∀ {l : List α}, (∀ x ∈ l, f x = .ok (g x)) → l.mapM f = .ok (l.map g)
  | [], _ => rfl
  | x :: l, h => by
    rw [List.mapM_cons, h x (by simp), mapM_values (l := l) fun y hy => h y (by simp [hy])]
    rfl

theorem half_sub_abs (T τ : ℝ) : T / 2 - |T / 2 - τ| = min τ (T - τ) := by
  rcases le_total τ (T - τ) with h | h
  · rw [min_eq_left h, abs_of_nonneg (by linarith)]; ring
  · rw [min_eq_right h, abs_of_nonpos (by linarith)]; ring

theorem limitSigmas_closed (hM : M.Standard) (offset σ T : ℝ) (active : Bool) {taus δ : List ℝ} (hl : taus.length = δ.length) :
    ∃ r, limitSigmas M offset σ T active taus δ = .ok r ∧ r.length = δ.length ∧ ∀ i < δ.length, r.getD i 0 =
      if active then σ + (σ * min (taus.getD i 0) (T - taus.getD i 0) / offset - σ) * ((1 - Real.cos (Real.pi * δ.getD i 0)) / 2)
      else σ + δ.getD i 0 := by
  unfold limitSigmas
  cases active with
  | false =>
    refine ⟨_, rfl, by simp, fun i hi => ?_⟩
    simp only [List.getD_eq_getElem?_getD, List.getElem?_map, List.getElem?_eq_getElem hi]
    simp [add_comm]
  | true =>
    refine ⟨(List.range δ.length).map fun i =>
      σ + (σ * min (taus.getD i 0) (T - taus.getD i 0) / offset - σ) * ((1 - Real.cos (Real.pi * δ.getD i 0)) / 2), ?_, by simp,
      fun i hi => ?_⟩
    · simp only [if_true]
      refine mapM_values fun i hi => ?_
      rw [List.mem_range] at hi
      rw [getIdx_getD (by omega), getIdx_getD (by omega)]
      simp only [bind, Except.bind, pure, Except.pure, half_sub_abs, hM.cos, hM.pi]
      congr 1
      ring
    · simp [List.getD_eq_getElem?_getD, List.getElem?_map, List.getElem?_range hi]

/-- A pulse built from steps. -/
theorem steps_shown (hM : M.Standard) (hr : PulseReach M d p) {offset σ T : ℝ} {closing : Bool} {A taus sigmas : List ℝ}
    (hA : A.length = n + 1) (hτ : taus.length = n) (hs : sigmas.length = n)
    (h : (p.setInputs X T).shaped M = sigmoidBuild M n offset σ closing p.binsNumber A taus sigmas (linspace0 T p.binsNumber) T) :
    ∃ q u, p.getBarePulse M X T = .ok (q, u) ∧ u.length = d.binsNumber ∧ ∀ j < d.binsNumber, u[j]? =
      some (stepsAt n (fun i => A.getD i 0) (fun i => taus.getD i 0) (fun i => sigmas.getD i 0) (closing = true) offset σ T
        (sampleTime T d.binsNumber j)) := by
  rw [sigmoidBuild_closed M offset σ closing (by omega) (by omega) (by omega) (by simp [linspace0])] at h
  obtain ⟨q, u, h1, h2, h3⟩ := bare_samples hr h
  refine ⟨q, u, h1, h2, fun j hj => ?_⟩
  rw [h3 j hj]
  simp only [sigmoidVal, stepsAt, docStep, sigStep, hM.erf, hM.sqrt2]
  congr 1
  have hsum : A.sum = ∑ i ∈ range (n + 1), A.getD i 0 := by
    rw [list_sum_range A hA, Finset.sum_range_succ', add_comm]
  rw [hsum]
  have e : ∀ i ∈ range n, A.getD (i + 1) 0 / 2 *
      (errorFn ((sampleTime T d.binsNumber j - taus.getD i 0) / (√2 * sigmas.getD i 0)) + 1) =
      A.getD (i + 1) 0 * (1 / 2) * (1 + errorFn ((sampleTime T d.binsNumber j - taus.getD i 0) / (√2 * sigmas.getD i 0))) :=
    fun i _ => by ring
  rw [Finset.sum_congr rfl e]
  split <;> ring

theorem take_getD {l : List ℝ} {m i : ℕ} (h : i < m) : (l.take m).getD i 0 = l.getD i 0 := by
  simp only [List.getD_eq_getElem?_getD, List.getElem?_take, h, if_true]

theorem drop_getD (l : List ℝ) (m i : ℕ) : (l.drop m).getD i 0 = l.getD (m + i) 0 := by
  simp only [List.getD_eq_getElem?_getD, List.getElem?_drop]

theorem map_getD {l : List ℝ} {f : ℝ → ℝ} {i : ℕ} (h : i < l.length) : (l.map f).getD i 0 = f (l.getD i 0) := by
  simp only [List.getD_eq_getElem?_getD, List.getElem?_map, List.getElem?_eq_getElem h, Option.map_some, Option.getD_some]

theorem zipWith_getD {l m : List ℝ} {i : ℕ} (h : i < l.length) (h' : i < m.length) :
    (List.zipWith (· + ·) l m).getD i 0 = l.getD i 0 + m.getD i 0 := by
  simp [List.getD_eq_getElem?_getD, List.getElem?_zipWith, List.getElem?_eq_getElem h, List.getElem?_eq_getElem h']

theorem replicate_getD {m i : ℕ} {x : ℝ} (h : i < m) : (List.replicate m x).getD i 0 = x := by
  simp [List.getD_eq_getElem?_getD, h]

theorem stepsAt_congr {A A' τ τ' s s' : ℕ → ℝ} {c c' : Prop} [Decidable c] [Decidable c'] {offset σ T t : ℝ}
    (hA : ∀ i < n + 1, A i = A' i) (hτ : ∀ i < n, τ i = τ' i) (hs : ∀ i < n, s i = s' i) (hc : c ↔ c') :
    stepsAt n A τ s c offset σ T t = stepsAt n A' τ' s' c' offset σ T t := by
  unfold stepsAt
  rw [hA 0 (by omega), Finset.sum_congr rfl fun i hi => hA i (Finset.mem_range.1 hi),
    Finset.sum_congr rfl fun i hi => by
      have hi := Finset.mem_range.1 hi
      rw [hA (i + 1) (by omega), hτ i hi, hs i hi]]
  simp only [hc]

theorem MovedInside.congr {offset T : ℝ} {a a' b b' : ℕ → ℝ} (h : MovedInside n offset T a b) (ha : ∀ i < n, a i = a' i)
    (hb : ∀ i < n, b i = b' i) : MovedInside n offset T a' b' := by
  refine ⟨fun hin i hi => ?_, fun hT i hi => ?_, fun hT i hi j hj hij => ?_⟩
  · rw [← hb i hi, h.same (fun k hk => by rw [ha k hk]; exact hin k hk) i hi, ha i hi]
  · rw [← hb i hi]; exact h.inside hT i hi
  · rw [← hb i hi, ← hb j hj]; exact h.order hT i hi j hj (by rw [ha i hi, ha j hj]; exact hij)

/-- **C101, SigmoidTimeDep.** The first `n + 1` coefficients are the sizes of the steps, the other ones, times
`tau_variation / amplitude_variation`, move the random step times; times that leave the pulse are moved inside. -/
theorem C101_time_dep {offset σ tv : ℝ} (hM : M.Standard) (hr : PulseReach M d p) (hb : d.basis = .sigmoidTimeDep n offset σ tv)
    (hn : 1 ≤ n) (hX : X.length = 2 * n + 1) (T : ℝ) :
    ∃ q u τ, p.getBarePulse M X T = .ok (q, u) ∧ u.length = d.binsNumber ∧
      MovedInside n offset T (fun i => p.w.getD i 0 + X.getD (n + 1 + i) 0 * tv / d.amplitudeVariation) τ ∧
      ∀ j < d.binsNumber, u[j]? =
        some (stepsAt n (fun i => X.getD i 0) τ (fun _ => σ) True offset σ T (sampleTime T d.binsNumber j)) := by
  obtain ⟨hw, _, hav⟩ := hr.w_length
  have hbas := hr.fields.2.2.2.2.2.2.2.2
  rw [hb] at hw
  have hw : p.w.length = n := hw
  have hh : (X.length + 1) / 2 = n + 1 := by omega
  have hdl : ((X.drop (n + 1)).map (fun y => y * tv / p.amplitudeVariation)).length = n := by
    simp only [List.length_map, List.length_drop, hX]; omega
  have hzl : (List.zipWith (· + ·) p.w ((X.drop (n + 1)).map (fun y => y * tv / p.amplitudeVariation))).length = n := by
    rw [List.length_zipWith, hdl, hw, Nat.min_self]
  obtain ⟨taus, ht⟩ := rescaleTaus_ok offset T (taus := List.zipWith (· + ·) p.w
    ((X.drop (n + 1)).map (fun y => y * tv / p.amplitudeVariation))) (List.ne_nil_of_length_pos (by omega))
  have hm := moved_inside ht
  have htl := rescaleTaus_length ht
  rw [hzl] at hm htl
  obtain ⟨q, u, h1, h2, h3⟩ := steps_shown (X := X) (T := T) hM hr (offset := offset) (σ := σ) (closing := true)
    (A := X.take (n + 1)) (taus := taus) (sigmas := List.replicate n σ) (by simp only [List.length_take, hX]; omega) htl (by simp)
    (by
      simp only [Pulse.shaped, Pulse.setInputs, hbas, hb, sigmoidTimeDepShape, hh]
      rw [bop_eq (by rw [hdl, hw])]
      simp only [bind, Except.bind]
      rw [ht])
  refine ⟨q, u, fun i => taus.getD i 0, h1, h2, hm.congr (fun i hi => ?_) (fun _ _ => rfl), fun j hj => ?_⟩
  · rw [zipWith_getD (by omega) (by omega), map_getD (by simp only [List.length_drop]; omega), drop_getD, hav]
  · rw [h3 j hj]
    exact congrArg some (stepsAt_congr (fun i hi => take_getD hi) (fun _ _ => rfl) (fun i hi => replicate_getD hi) (by simp))

/-- **C101, SigmoidSigmas.** The first `n + 1` coefficients are the sizes of the steps at the random times, the sizes of the other ones,
times `sigma_variation`, are the variations of their widths. -/
theorem C101_sigmas {offset σ sv : ℝ} (hM : M.Standard) (hr : PulseReach M d p) (hb : d.basis = .sigmoidSigmas n offset σ sv)
    (hX : X.length = 2 * n + 1) (T : ℝ) :
    ∃ q u, p.getBarePulse M X T = .ok (q, u) ∧ u.length = d.binsNumber ∧ ∀ j < d.binsNumber, u[j]? =
      some (stepsAt n (fun i => X.getD i 0) (fun i => p.w.getD i 0)
        (fun i => stepWidth offset σ T (p.w.getD i 0) (|X.getD (n + 1 + i) 0| * sv)) True offset σ T (sampleTime T d.binsNumber j)) := by
  obtain ⟨hw, _, hav⟩ := hr.w_length
  have hbas := hr.fields.2.2.2.2.2.2.2.2
  rw [hb] at hw
  have hw : p.w.length = n := hw
  have hh : (X.length + 1) / 2 = n + 1 := by omega
  have hdl : ((X.drop (n + 1)).map (fun y => |y| * sv)).length = n := by
    simp only [List.length_map, List.length_drop, hX]; omega
  obtain ⟨sigmas, hs, hsl, hsv⟩ := limitSigmas_closed hM offset σ T (decide (offset ≥ 1 / 10 ^ 10)) (taus := p.w)
    (δ := (X.drop (n + 1)).map (fun y => |y| * sv)) (by rw [hdl, hw])
  rw [hdl] at hsl hsv
  obtain ⟨q, u, h1, h2, h3⟩ := steps_shown (X := X) (T := T) hM hr (offset := offset) (σ := σ) (closing := true)
    (A := X.take (n + 1)) (taus := p.w) (sigmas := sigmas) (by simp only [List.length_take, hX]; omega) hw hsl
    (by
      simp only [Pulse.shaped, Pulse.setInputs, hbas, hb, sigmoidSigmasShape, hh]
      rw [hs]
      rfl)
  refine ⟨q, u, h1, h2, fun j hj => ?_⟩
  rw [h3 j hj]
  refine congrArg some (stepsAt_congr (fun i hi => take_getD hi) (fun _ _ => rfl) (fun i hi => ?_) (by simp))
  rw [hsv i hi, map_getD (by simp only [List.length_drop]; omega), drop_getD]
  simp only [stepWidth, decide_eq_true_eq, ge_iff_le]

/-- **C101, SigmoidAllParas.** The first `n + 1` coefficients are the sizes of the steps. With a `tau_variation` above `1e-10` the next `n`
move the step times, with a `sigma_variation` above `1e-10` the last `n` change the widths; otherwise they are those of the random times
and `sigma`. The pulse is brought back to zero only with an offset of at least `1e-10`. -/
theorem C101_all_parameters {offset σ tv sv : ℝ} (hM : M.Standard) (hr : PulseReach M d p)
    (hb : d.basis = .sigmoidAllParas n offset σ tv sv) (hn : 1 ≤ n)
    (hX : X.length = n + 1 + (if 1 / 10 ^ 10 < tv then n else 0) + (if 1 / 10 ^ 10 < sv then n else 0)) (T : ℝ) :
    ∃ q u τ s, p.getBarePulse M X T = .ok (q, u) ∧ u.length = d.binsNumber ∧
      (1 / 10 ^ 10 < tv →
        MovedInside n offset T (fun i => p.w.getD i 0 + X.getD (n + 1 + i) 0 * tv / d.amplitudeVariation) τ) ∧
      (tv ≤ 1 / 10 ^ 10 → ∀ i < n, τ i = p.w.getD i 0) ∧
      (1 / 10 ^ 10 < sv → ∀ i < n, s i = stepWidth offset σ T (τ i)
        (|X.getD ((if 1 / 10 ^ 10 < tv then 2 * n + 1 else n + 1) + i) 0| * sv / d.amplitudeVariation)) ∧
      (sv ≤ 1 / 10 ^ 10 → ∀ i < n, s i = σ) ∧
      ∀ j < d.binsNumber, u[j]? =
        some (stepsAt n (fun i => X.getD i 0) τ s (1 / 10 ^ 10 ≤ offset) offset σ T (sampleTime T d.binsNumber j)) := by
  obtain ⟨hw, _, hav⟩ := hr.w_length
  have hbas := hr.fields.2.2.2.2.2.2.2.2
  rw [hb] at hw
  have hw : p.w.length = n := hw
  have hz : (zeros n : List ℝ).length = n := by simp [zeros]
  have hzv : ∀ i < n, (zeros n : List ℝ).getD i 0 = 0 := fun i hi => replicate_getD hi
  set av := p.amplitudeVariation with hav'
  have hsh : (p.setInputs X T).shaped M =
      sigmoidAllParasShape M n offset σ tv sv av p.binsNumber p.w X (linspace0 T p.binsNumber) T := by
    simp only [Pulse.shaped, Pulse.setInputs, hbas, hb]
    rfl
  have fin : ∀ (A taus δ : List ℝ) (active : Bool), A.length = n + 1 → taus.length = n → δ.length = n →
      (p.setInputs X T).shaped M = (limitSigmas M offset σ T active taus δ >>= fun sigmas =>
        sigmoidBuild M n offset σ (decide (offset ≥ 1 / 10 ^ 10)) p.binsNumber A taus sigmas (linspace0 T p.binsNumber) T) →
      (∀ i < n + 1, A.getD i 0 = X.getD i 0) →
      ∃ q u s, p.getBarePulse M X T = .ok (q, u) ∧ u.length = d.binsNumber ∧
        (∀ i < n, s i = if active then σ + (σ * min (taus.getD i 0) (T - taus.getD i 0) / offset - σ) *
          ((1 - Real.cos (Real.pi * δ.getD i 0)) / 2) else σ + δ.getD i 0) ∧
        ∀ j < d.binsNumber, u[j]? =
          some (stepsAt n (fun i => X.getD i 0) (fun i => taus.getD i 0) s (1 / 10 ^ 10 ≤ offset) offset σ T
            (sampleTime T d.binsNumber j)) := by
    intro A taus δ active hA hτ hδ h hAv
    obtain ⟨sigmas, hs, hsl, hsv⟩ := limitSigmas_closed hM offset σ T active (taus := taus) (δ := δ) (by omega)
    rw [hδ] at hsl hsv
    rw [hs] at h
    obtain ⟨q, u, h1, h2, h3⟩ := steps_shown (X := X) (T := T) hM hr hA hτ hsl h
    refine ⟨q, u, fun i => sigmas.getD i 0, h1, h2, hsv, fun j hj => ?_⟩
    rw [h3 j hj]
    exact congrArg some (stepsAt_congr hAv (fun _ _ => rfl) (fun _ _ => rfl) (by simp))
  have tauCase : ∀ δ : List ℝ, δ.length = n → ∃ ts taus, iadd p.w δ = .ok ts ∧ rescaleTaus offset T ts = .ok taus ∧
      taus.length = n ∧ MovedInside n offset T (fun i => p.w.getD i 0 + δ.getD i 0) (fun i => taus.getD i 0) := by
    intro δ hd
    have hzl : (List.zipWith (· + ·) p.w δ).length = n := by rw [List.length_zipWith, hd, hw, Nat.min_self]
    obtain ⟨taus, ht⟩ := rescaleTaus_ok offset T (taus := List.zipWith (· + ·) p.w δ) (List.ne_nil_of_length_pos (by omega))
    have hm := moved_inside ht
    have htl := rescaleTaus_length ht
    rw [hzl] at hm htl
    exact ⟨_, taus, iadd_eq (by rw [hw, hd]), ht, htl, hm.congr (fun i hi => zipWith_getD (by omega) (by omega)) fun _ _ => rfl⟩
  unfold sigmoidAllParasShape at hsh
  by_cases ht : 1 / 10 ^ 10 < tv <;> by_cases hs : 1 / 10 ^ 10 < sv <;>
    simp only [ht, hs, hw, decide_true, decide_false, Bool.or_self, Bool.or_true, Bool.or_false,
      Bool.false_eq_true, if_true, if_false, Bool.true_and, Bool.false_and, pure_bind] at hX hsh ⊢
  · obtain ⟨ts, taus, h1, h2, h3, h4⟩ := tauCase (((X.drop (n + 1)).take n).map (fun y => y * tv / av))
      (by simp only [List.length_map, List.length_take, List.length_drop, hX]; omega)
    rw [h1] at hsh
    simp only [bind, Except.bind] at hsh
    rw [h2] at hsh
    obtain ⟨q, u, s, g1, g2, g3, g4⟩ := fin _ _ _ _ (by simp only [List.length_take, hX]; omega) h3
      (by simp only [List.length_map, List.length_drop, hX]; omega) hsh (fun i hi => take_getD hi)
    refine ⟨q, u, _, s, g1, g2, fun _ => h4.congr (fun i hi => ?_) (fun _ _ => rfl), fun h => absurd ht (not_lt.2 h), fun _ i hi => ?_,
      fun h => absurd hs (not_lt.2 h), g4⟩
    · rw [map_getD (by simp only [List.length_take, List.length_drop]; omega), take_getD hi, drop_getD, hav]
    · rw [g3 i hi, map_getD (by simp only [List.length_drop]; omega), drop_getD, hav]
      simp only [stepWidth, decide_eq_true_eq, ge_iff_le]
  · obtain ⟨ts, taus, h1, h2, h3, h4⟩ := tauCase ((X.drop (n + 1)).map (fun y => y * tv / av))
      (by simp only [List.length_map, List.length_drop, hX]; omega)
    rw [h1] at hsh
    simp only [bind, Except.bind] at hsh
    rw [h2] at hsh
    obtain ⟨q, u, s, g1, g2, g3, g4⟩ := fin (X.take (n + 1)) taus (zeros n) false (by simp only [List.length_take, hX]; omega) h3 hz hsh (fun i hi => take_getD hi)
    refine ⟨q, u, _, s, g1, g2, fun _ => h4.congr (fun i hi => ?_) (fun _ _ => rfl), fun h => absurd ht (not_lt.2 h),
      fun h => h.elim, fun _ i hi => ?_, g4⟩
    · rw [map_getD (by simp only [List.length_drop]; omega), drop_getD, hav]
    · rw [g3 i hi, hzv i hi]; simp
  · obtain ⟨q, u, s, g1, g2, g3, g4⟩ := fin _ _ _ _ (by simp only [List.length_take, hX]; omega) hw
      (by simp only [List.length_map, List.length_drop, hX]; omega) hsh (fun i hi => take_getD hi)
    refine ⟨q, u, _, s, g1, g2, fun h => h.elim, fun _ i hi => rfl, fun _ i hi => ?_,
      fun h => absurd hs (not_lt.2 h), g4⟩
    rw [g3 i hi, map_getD (by simp only [List.length_drop]; omega), drop_getD, hav]
    simp only [stepWidth, decide_eq_true_eq, ge_iff_le]
  · obtain ⟨q, u, s, g1, g2, g3, g4⟩ := fin _ _ _ _ (by omega) hw hz hsh (fun i hi => rfl)
    refine ⟨q, u, _, s, g1, g2, fun h => h.elim, fun _ i hi => rfl, fun h => h.elim, fun _ i hi => ?_, g4⟩
    rw [g3 i hi, hzv i hi]; simp

/-! ### The ends of the pulse -/

theorem wide_start {A τ s σ offset : ℝ} (hσ : 0 < σ) (hs : 0 < s) (ho : 0 ≤ offset) (h : offset * s ≤ σ * τ) :
    |docStep A τ s 0| ≤ |A| * (1 / 2) * Real.exp (-(offset / (√2 * σ)) ^ 2) := by
  have e : docStep A τ s 0 = docStep A (σ * τ / s) σ 0 := by
    unfold docStep
    have hq : √2 ≠ 0 := by positivity
    congr 3
    field_simp
    ring
  rw [e]
  exact docStep_start hσ ho (by rw [le_div_iff₀ hs]; exact h)

theorem wide_end {A τ s σ offset T : ℝ} (hσ : 0 < σ) (hs : 0 < s) (ho : 0 ≤ offset) (h : offset * s ≤ σ * (T - τ)) :
    |docStep A τ s T - A| ≤ |A| * (1 / 2) * Real.exp (-(offset / (√2 * σ)) ^ 2) := by
  have e : docStep A τ s T = docStep A (T - σ * (T - τ) / s) σ T := by
    unfold docStep
    have hq : √2 ≠ 0 := by positivity
    congr 3
    field_simp
    ring
  rw [e]
  exact docStep_end hσ ho (by
    have : offset ≤ σ * (T - τ) / s := by rw [le_div_iff₀ hs]; exact h
    linarith)

/-- Steps that are far enough from both ends, in units of their widths. -/
theorem steps_ends {A τ s : ℕ → ℝ} {offset σ T : ℝ} (hσ : 0 < σ) (ho : 0 ≤ offset) (hT : offset ≤ T - offset)
    (hs : ∀ i < n, 0 < s i ∧ offset * s i ≤ σ * min (τ i) (T - τ i)) :
    (∀ t, t = 0 ∨ t = T → |stepsAt n A τ s True offset σ T t| ≤
      (1 / 2) * (∑ i ∈ range (n + 1), |A i| + |∑ i ∈ range (n + 1), A i|) * Real.exp (-(offset / (√2 * σ)) ^ 2)) := by
  set E := Real.exp (-(offset / (√2 * σ)) ^ 2)
  have hsum : ∑ i ∈ range (n + 1), |A i| = |A 0| + ∑ i ∈ range n, |A (i + 1)| := by rw [Finset.sum_range_succ', add_comm]
  rintro t (rfl | rfl)
  · have a := docStep_start (A := A 0) hσ ho le_rfl
    have b := docStep_start (A := -∑ i ∈ range (n + 1), A i) (τ := T - offset) hσ ho hT
    rw [abs_neg] at b
    have c : |∑ i ∈ range n, docStep (A (i + 1)) (τ i) (s i) 0| ≤ ∑ i ∈ range n, |A (i + 1)| * (1 / 2) * E :=
      (Finset.abs_sum_le_sum_abs _ _).trans (Finset.sum_le_sum fun i hi => by
        have h := hs i (Finset.mem_range.1 hi)
        exact wide_start hσ h.1 ho (h.2.trans (mul_le_mul_of_nonneg_left (min_le_left _ _) hσ.le)))
    rw [← Finset.sum_mul, ← Finset.sum_mul] at c
    unfold stepsAt
    rw [if_pos trivial]
    refine (abs_add_three _ _ _).trans ?_
    rw [hsum]
    linarith
  · have a := docStep_end (A := A 0) (τ := offset) (T := t) hσ ho hT
    have b := docStep_end (A := -∑ i ∈ range (n + 1), A i) (τ := t - offset) (T := t) hσ ho le_rfl
    rw [abs_neg] at b
    have c : |∑ i ∈ range n, docStep (A (i + 1)) (τ i) (s i) t - ∑ i ∈ range n, A (i + 1)| ≤
        ∑ i ∈ range n, |A (i + 1)| * (1 / 2) * E :=
      sum_near fun i hi => by
        have h := hs i hi
        exact wide_end hσ h.1 ho (h.2.trans (mul_le_mul_of_nonneg_left (min_le_right _ _) hσ.le))
    rw [← Finset.sum_mul, ← Finset.sum_mul] at c
    have hx : ∑ i ∈ range (n + 1), A i = A 0 + ∑ i ∈ range n, A (i + 1) := by rw [Finset.sum_range_succ', add_comm]
    unfold stepsAt
    rw [if_pos trivial]
    have e : docStep (A 0) offset σ t + ∑ i ∈ range n, docStep (A (i + 1)) (τ i) (s i) t +
        docStep (-∑ i ∈ range (n + 1), A i) (t - offset) σ t = (docStep (A 0) offset σ t - A 0) +
        (∑ i ∈ range n, docStep (A (i + 1)) (τ i) (s i) t - ∑ i ∈ range n, A (i + 1)) +
        (docStep (-∑ i ∈ range (n + 1), A i) (t - offset) σ t - -∑ i ∈ range (n + 1), A i) := by rw [hx]; ring
    rw [e]
    refine (abs_add_three _ _ _).trans ?_
    rw [hsum]
    linarith

/-- The width stays in its limits. -/
theorem stepWidth_limits {offset σ T τ δ : ℝ} (hσ : 0 < σ) (ho : 1 / 10 ^ 10 ≤ offset) (h : offset ≤ τ ∧ τ ≤ T - offset) :
    σ ≤ stepWidth offset σ T τ δ ∧ offset * stepWidth offset σ T τ δ ≤ σ * min τ (T - τ) := by
  have h0 : 0 < offset := lt_of_lt_of_le (by norm_num) ho
  have hm : offset ≤ min τ (T - τ) := le_min h.1 (by linarith [h.2])
  have hd : σ ≤ σ * min τ (T - τ) / offset := by
    rw [le_div_iff₀ h0]
    exact mul_le_mul_of_nonneg_left hm hσ.le
  have hc := Real.neg_one_le_cos (Real.pi * δ)
  have hc' := Real.cos_le_one (Real.pi * δ)
  unfold stepWidth
  rw [if_pos ho]
  constructor
  · nlinarith [mul_nonneg (sub_nonneg.2 hd) (by linarith : (0 : ℝ) ≤ (1 - Real.cos (Real.pi * δ)) / 2)]
  · have hle : σ + (σ * min τ (T - τ) / offset - σ) * ((1 - Real.cos (Real.pi * δ)) / 2) ≤ σ * min τ (T - τ) / offset := by
      nlinarith [mul_le_mul_of_nonneg_left (by linarith : (1 - Real.cos (Real.pi * δ)) / 2 ≤ 1) (sub_nonneg.2 hd)]
    calc _ ≤ offset * (σ * min τ (T - τ) / offset) := mul_le_mul_of_nonneg_left hle h0.le
      _ = _ := by field_simp

/-- **C101, ends.** With an offset of at least `1e-10`, a positive `sigma` and a duration of at least two offsets, a pulse of each of the
three bases starts and ends below `e^{-(offset/σ)²/2}` times half the sum of the sizes of all steps, whatever the coefficients are. For
random step times that are not optimized this needs that they lie between `offset` and `T - offset`. -/
theorem C101_ends {offset σ T : ℝ} (hM : M.Standard) (hr : PulseReach M d p) (hn : 1 ≤ n)
    (hb : (∃ tv, d.basis = .sigmoidTimeDep n offset σ tv) ∨
      (∃ sv, d.basis = .sigmoidSigmas n offset σ sv ∧ ∀ τ ∈ p.w, offset ≤ τ ∧ τ ≤ T - offset) ∨
      ∃ tv sv, d.basis = .sigmoidAllParas n offset σ tv sv ∧ (tv ≤ 1 / 10 ^ 10 → ∀ τ ∈ p.w, offset ≤ τ ∧ τ ≤ T - offset))
    (hX : X.length = p.nParams) (hσ : 0 < σ) (ho : 1 / 10 ^ 10 ≤ offset) (hT : offset ≤ T - offset) (h2 : 2 ≤ d.binsNumber) :
    ∃ q u first last, p.getBarePulse M X T = .ok (q, u) ∧ u[0]? = some first ∧ u[d.binsNumber - 1]? = some last ∧
      (∀ y, y = first ∨ y = last → |y| ≤ (1 / 2) * (∑ i ∈ range (n + 1), |X.getD i 0| + |∑ i ∈ range (n + 1), X.getD i 0|) *
        Real.exp (-(offset / (√2 * σ)) ^ 2)) := by
  have h0 : 0 < offset := lt_of_lt_of_le (by norm_num) ho
  have t0 : sampleTime T d.binsNumber 0 = 0 := by simp [sampleTime]
  have hb1 : (0 : ℝ) < ((d.binsNumber - 1 : ℕ) : ℝ) := by exact_mod_cast (by omega : 0 < d.binsNumber - 1)
  have t1 : sampleTime T d.binsNumber (d.binsNumber - 1) = T := by unfold sampleTime; field_simp
  generalize hG : (∃ q u first last, p.getBarePulse M X T = .ok (q, u) ∧ u[0]? = some first ∧ u[d.binsNumber - 1]? = some last ∧
      (∀ y, y = first ∨ y = last → |y| ≤ (1 / 2) * (∑ i ∈ range (n + 1), |X.getD i 0| + |∑ i ∈ range (n + 1), X.getD i 0|) *
        Real.exp (-(offset / (√2 * σ)) ^ 2))) = G
  have fin : ∀ (q : Pulse ℝ) (u : List ℝ) (τ s : ℕ → ℝ), p.getBarePulse M X T = .ok (q, u) →
      (∀ j < d.binsNumber, u[j]? = some (stepsAt n (fun i => X.getD i 0) τ s True offset σ T (sampleTime T d.binsNumber j))) →
      (∀ i < n, 0 < s i ∧ offset * s i ≤ σ * min (τ i) (T - τ i)) → G := fun q u τ s h1 h3 hs => by
    subst hG
    have he := steps_ends (A := fun i => X.getD i 0) hσ h0.le hT hs
    exact ⟨q, u, _, _, h1, h3 0 (by omega), h3 _ (by omega), by
      rintro y (rfl | rfl)
      · exact he _ (.inl t0)
      · exact he _ (.inr t1)⟩
  obtain ⟨hw, hnp, _⟩ := hr.w_length
  rw [hnp] at hX
  have key : ∀ τ : ℝ, offset ≤ τ ∧ τ ≤ T - offset → 0 < σ ∧ offset * σ ≤ σ * min τ (T - τ) := fun τ h => by
    refine ⟨hσ, ?_⟩
    rw [mul_comm]
    exact mul_le_mul_of_nonneg_left (le_min h.1 (by linarith [h.2])) hσ.le
  rcases hb with ⟨tv, hb⟩ | ⟨sv, hb, hin⟩ | ⟨tv, sv, hb, hin⟩ <;> rw [hb] at hX hw
  · obtain ⟨q, u, τ, h1, _, hm, h3⟩ := C101_time_dep hM hr hb hn hX T
    exact fin q u τ _ h1 h3 fun i hi => key _ (hm.inside hT i hi)
  · have hw : p.w.length = n := hw
    obtain ⟨q, u, h1, _, h3⟩ := C101_sigmas hM hr hb hX T
    refine fin q u _ _ h1 h3 fun i hi => ?_
    have hi' : offset ≤ p.w.getD i 0 ∧ p.w.getD i 0 ≤ T - offset := by
      rw [List.getD_eq_getElem?_getD, List.getElem?_eq_getElem (by omega)]
      exact hin _ (List.getElem_mem _)
    have := stepWidth_limits (δ := |X.getD (n + 1 + i) 0| * sv) hσ ho hi'
    exact ⟨lt_of_lt_of_le hσ this.1, this.2⟩
  · have hw : p.w.length = n := hw
    have hX : X.length = n + 1 + (if 1 / 10 ^ 10 < tv then n else 0) + (if 1 / 10 ^ 10 < sv then n else 0) := hX
    obtain ⟨q, u, τ, s, h1, _, hm, hm', hs, hs', h3⟩ := C101_all_parameters hM hr hb hn hX T
    have h3' : ∀ j < d.binsNumber, u[j]? = some (stepsAt n (fun i => X.getD i 0) τ s True offset σ T (sampleTime T d.binsNumber j)) :=
      fun j hj => by rw [h3 j hj]; exact congrArg some (stepsAt_congr (fun _ _ => rfl) (fun _ _ => rfl) (fun _ _ => rfl) (iff_true_intro ho))
    refine fin q u τ s h1 h3' fun i hi => ?_
    have hi' : offset ≤ τ i ∧ τ i ≤ T - offset := by
      rcases lt_or_ge (1 / 10 ^ 10) tv with ht | ht
      · exact (hm ht).inside hT i hi
      · rw [hm' ht i hi, List.getD_eq_getElem?_getD, List.getElem?_eq_getElem (by omega)]
        exact hin ht _ (List.getElem_mem _)
    rcases lt_or_ge (1 / 10 ^ 10) sv with ht | ht
    · rw [hs ht i hi]
      have := stepWidth_limits (δ := |X.getD ((if 1 / 10 ^ 10 < tv then 2 * n + 1 else n + 1) + i) 0| * sv / d.amplitudeVariation) hσ ho hi'
      exact ⟨lt_of_lt_of_le hσ this.1, this.2⟩
    · rw [hs' ht i hi]; exact key _ hi'

/-- SigmoidTimeDep with `offset = sigma = 0.1`, `tau_variation = 1`: the random time `1/2` is moved by 3, out of the pulse of duration 1. -/
example : ∃ p, PulseReach standardFns (exBasisPulse (.sigmoidTimeDep 1 (1 / 10) (1 / 10) 1)) p ∧ p.w = [1 / 2] ∧
    ([2, 1, 3] : List ℝ).length = 2 * 1 + 1 ∧ (1 / 10 ^ 10 : ℝ) ≤ 1 / 10 ∧ (1 / 10 : ℝ) ≤ 1 - 1 / 10 ∧
    ∀ τ, MovedInside 1 (1 / 10) 1 (fun i => p.w.getD i 0 + ([2, 1, 3] : List ℝ).getD (1 + 1 + i) 0 * 1 / 1) τ → τ 0 ≤ 9 / 10 := by
  obtain ⟨p, h, hw⟩ := exBasisPulse_reach (b := .sigmoidTimeDep 1 (1 / 10) (1 / 10) 1) rfl (by simp [basisParams])
  exact ⟨p, h, hw, rfl, by norm_num, by norm_num, fun τ hm => by have := (hm.inside (by norm_num) 0 (by norm_num)).2; linarith⟩

/-- SigmoidSigmas and SigmoidAllParas, with a random time inside the pulse. -/
example : (∃ p, PulseReach standardFns (exBasisPulse (.sigmoidSigmas 1 (1 / 10) (1 / 10) 1)) p ∧
      ([2, 1, 3] : List ℝ).length = 2 * 1 + 1 ∧ ∀ τ ∈ p.w, (1 / 10 : ℝ) ≤ τ ∧ τ ≤ 1 - 1 / 10) ∧
    ∃ p, PulseReach standardFns (exBasisPulse (.sigmoidAllParas 1 (1 / 10) (1 / 10) 1 1)) p ∧ p.w = [1 / 2] ∧
      ([2, 1, 3, 4] : List ℝ).length = 1 + 1 + (if (1 / 10 ^ 10 : ℝ) < 1 then 1 else 0) + (if (1 / 10 ^ 10 : ℝ) < 1 then 1 else 0) := by
  constructor
  · obtain ⟨p, h, hw⟩ := exBasisPulse_reach (b := .sigmoidSigmas 1 (1 / 10) (1 / 10) 1) rfl (by simp [basisParams])
    refine ⟨p, h, rfl, ?_⟩
    rw [hw]
    intro τ hτ
    obtain rfl := List.mem_singleton.1 hτ
    norm_num
  · obtain ⟨p, h, hw⟩ := exBasisPulse_reach (b := .sigmoidAllParas 1 (1 / 10) (1 / 10) 1 1) rfl (by simp [basisParams])
    exact ⟨p, h, hw, by norm_num⟩
end
end QuOCS

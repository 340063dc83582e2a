/-
Helper lemmas about the pulse model.
-/
import Verif.Model.Pulse
import Verif.Lemmas.Numpy

set_option linter.unusedSectionVars false

namespace QuOCS

section
variable {K : Type*} [Field K] [LinearOrder K] [IsStrictOrderedRing K]

theorem cutSample_mem {lo up : K} (h : lo ≤ up) (x : K) : lo ≤ cutSample lo up x ∧ cutSample lo up x ≤ up := by
  unfold cutSample
  exact ⟨le_max_right _ _, max_le (min_le_right _ _) h⟩

theorem cutSample_id {lo up x : K} (h1 : lo ≤ x) (h2 : x ≤ up) : cutSample lo up x = x := by
  simp [cutSample, h1, h2]

/-- Everything we need about `_shrink_pulse_2`: it is one affine map with non-negative slope, and it fits. -/
theorem shrinkPulse_spec {lb ub : K} (hlu : lb ≤ ub) {u v : List K} (h : shrinkPulse lb ub u = .ok v) :
    ∃ a b : K, 0 ≤ a ∧ a ≤ 1 ∧ v = u.map (fun x => a * x + b) ∧ (∀ x ∈ u, lb ≤ a * x + b ∧ a * x + b ≤ ub) ∧
      ((∀ x ∈ u, lb ≤ x ∧ x ≤ ub) → v = u) ∧
      ((∃ x ∈ u, lb < x) → (∃ x ∈ u, x < ub) → lb < ub → 0 < a) := by
  unfold shrinkPulse at h
  obtain ⟨M, hM, h⟩ := py_bind_ok.1 h
  obtain ⟨m, hm, h⟩ := py_bind_ok.1 h
  obtain ⟨hMm, hMle⟩ := amax_ok hM
  obtain ⟨hmm, hmle⟩ := amin_ok hm
  have hmM : m ≤ M := hmle M hMm
  split at h
  · rename_i hc
    rw [py_pure_ok] at h
    rcases hc with ⟨h1, h2⟩ | ⟨h1, h2⟩
    · refine ⟨0, ub, le_refl _, zero_le_one, ?_, ?_, ?_, ?_⟩
      · rw [← h]
        apply List.map_congr_left
        intro x hx
        have : ub ≤ x := le_trans h2 (hmle x hx)
        simp [cutSample, this, hlu]
      · intro x _; simp [hlu]
      · intro hin
        rw [← h]
        conv_rhs => rw [← List.map_id u]
        apply List.map_congr_left
        intro x hx
        exact cutSample_id (hin x hx).1 (hin x hx).2
      · rintro _ ⟨x, hx, hxu⟩
        exact absurd hxu (not_lt.2 (le_trans h2 (hmle x hx)))
    · refine ⟨0, lb, le_refl _, zero_le_one, ?_, ?_, ?_, ?_⟩
      · rw [← h]
        apply List.map_congr_left
        intro x hx
        have : x ≤ lb := le_trans (hMle x hx) h1
        simp [cutSample, this, le_trans this hlu]
      · intro x _; simp [hlu]
      · intro hin
        rw [← h]
        conv_rhs => rw [← List.map_id u]
        apply List.map_congr_left
        intro x hx
        exact cutSample_id (hin x hx).1 (hin x hx).2
      · rintro ⟨x, hx, hxu⟩
        exact absurd hxu (not_lt.2 (le_trans (hMle x hx) h1))
  · rename_i hc
    push Not at hc
    -- first step
    have step1 : ∃ a b : K, 0 < a ∧ a ≤ 1 ∧
        (if M > ub then u.map (fun x => (x - m) * shrinkCorrection |ub - m| |M - m| + m) else u)
          = u.map (fun x => a * x + b) ∧ (∀ x ∈ u, a * x + b ≤ ub) ∧
        (M ≤ ub → a = 1 ∧ b = 0) ∧ a * m + b = m := by
      by_cases hMu : M > ub
      · have hmu : m < ub := hc.1 hMu.le
        have hd : 0 < M - m := by linarith
        have hn : 0 < ub - m := by linarith
        have hc' : shrinkCorrection |ub - m| |M - m| = (ub - m) / (M - m) := by
          rw [shrinkCorrection, abs_of_pos hd, abs_of_pos hn]
          rw [if_neg]
          rw [not_lt, div_le_one hd]; linarith
        have hle1 : (ub - m) / (M - m) ≤ 1 := by rw [div_le_one hd]; linarith
        have hpos : 0 < (ub - m) / (M - m) := div_pos hn hd
        refine ⟨(ub - m) / (M - m), m - m * ((ub - m) / (M - m)), hpos, hle1, ?_, ?_, ?_, ?_⟩
        · rw [if_pos hMu, hc']
          apply List.map_congr_left
          intro x _; ring
        · intro x hx
          have hxM := hMle x hx
          have : (ub - m) / (M - m) * (x - m) ≤ (ub - m) / (M - m) * (M - m) :=
            mul_le_mul_of_nonneg_left (by linarith) hpos.le
          rw [div_mul_cancel₀ _ hd.ne'] at this
          have e : (ub - m) / (M - m) * x + (m - m * ((ub - m) / (M - m)))
            = (ub - m) / (M - m) * (x - m) + m := by ring
          rw [e]; linarith
        · intro h'; exact absurd hMu (not_lt.2 h')
        · ring
      · refine ⟨1, 0, one_pos, le_refl _, ?_, ?_, fun _ => ⟨rfl, rfl⟩, by ring⟩
        · rw [if_neg hMu]; simp
        · intro x hx
          have := hMle x hx
          have := not_lt.1 hMu
          simp only [one_mul, add_zero]; linarith
    obtain ⟨a, b, ha0, ha1, hui, hub, hab, ham⟩ := step1
    rw [hui] at h
    obtain ⟨M', hM', h⟩ := py_bind_ok.1 h
    obtain ⟨m', hm', h⟩ := py_bind_ok.1 h
    rw [py_pure_ok] at h
    obtain ⟨hM'm, hM'le⟩ := amax_ok hM'
    obtain ⟨hm'm, hm'le⟩ := amin_ok hm'
    have hM'ub : M' ≤ ub := by
      obtain ⟨x, hx, rfl⟩ := List.mem_map.1 hM'm
      exact hub x hx
    have hm'eq : m' = m := by
      obtain ⟨x, hx, e⟩ := List.mem_map.1 hm'm
      apply le_antisymm
      · have := hm'le _ (List.mem_map.2 ⟨m, hmm, rfl⟩)
        simpa [ham] using this
      · rw [← e, ← ham]
        have := mul_le_mul_of_nonneg_left (hmle x hx) ha0.le
        simpa using this
    have hMM : a * M + b ≤ M' := hM'le _ (List.mem_map.2 ⟨M, hMm, rfl⟩)
    by_cases hml : m' < lb
    · rw [if_pos hml] at h
      have hm'M' : m' ≤ M' := hm'le M' hM'm
      -- the upper end is above (or at) the lower bound
      have hMl : lb ≤ M' := by
        by_cases hMu : M > ub
        · -- after the first step the largest sample is exactly ub
          by_contra hcon
          push Not at hcon
          have hlt : a * M + b < ub := lt_of_le_of_lt hMM (lt_of_lt_of_le hcon hlu)
          have hmu : m < ub := hc.1 hMu.le
          have hd : 0 < M - m := by linarith
          have hn : 0 < ub - m := by linarith
          have hc' : shrinkCorrection |ub - m| |M - m| = (ub - m) / (M - m) := by
            rw [shrinkCorrection, abs_of_pos hd, abs_of_pos hn, if_neg]
            rw [not_lt, div_le_one hd]; linarith
          rw [if_pos hMu, hc'] at hui
          have := (List.map_inj_left.1 hui) M hMm
          rw [mul_div_cancel₀ _ hd.ne'] at this
          linarith
        · have hMu' := not_lt.1 hMu
          obtain ⟨h1, h2⟩ := hab hMu'
          subst h1; subst h2
          have : lb < M := by
            by_contra hcon
            have := hc.2 (not_lt.1 hcon)
            rw [hm'eq] at hml
            linarith
          simp only [one_mul, add_zero] at hMM
          linarith
      have hd : 0 < M' - m' := by linarith
      have hn : 0 ≤ M' - lb := by linarith
      have hle1 : (M' - lb) / (M' - m') ≤ 1 := by rw [div_le_one hd]; linarith
      have hpos : 0 ≤ (M' - lb) / (M' - m') := div_nonneg hn hd.le
      have hc' : shrinkCorrection |M' - lb| |M' - m'| = (M' - lb) / (M' - m') := by
        rw [shrinkCorrection, abs_of_pos hd, abs_of_nonneg hn, if_neg (not_lt.2 hle1)]
      rw [hc', List.map_map] at h
      set c := (M' - lb) / (M' - m') with hcdef
      have hcd : c * (M' - m') = M' - lb := div_mul_cancel₀ _ hd.ne'
      refine ⟨c * a, c * b + M' - M' * c, mul_nonneg hpos ha0.le, ?_, ?_, ?_, ?_, ?_⟩
      · calc c * a ≤ 1 * 1 := mul_le_mul hle1 ha1 ha0.le zero_le_one
          _ = 1 := one_mul _
      · rw [← h]
        apply List.map_congr_left
        intro x _
        simp only [Function.comp]; ring
      · intro x hx
        have hx1 : a * x + b ≤ M' := hM'le _ (List.mem_map.2 ⟨x, hx, rfl⟩)
        have hx2 : m' ≤ a * x + b := hm'le _ (List.mem_map.2 ⟨x, hx, rfl⟩)
        have e : c * a * x + (c * b + M' - M' * c) = M' - c * (M' - (a * x + b)) := by ring
        rw [e]
        have k1 : 0 ≤ c * (M' - (a * x + b)) := mul_nonneg hpos (by linarith)
        have k2 : c * (M' - (a * x + b)) ≤ c * (M' - m') := mul_le_mul_of_nonneg_left (by linarith) hpos
        constructor <;> linarith
      · intro hin
        exact absurd (hin m hmm).1 (not_le.2 (hm'eq ▸ hml))
      · rintro ⟨y, hy, hyl⟩ _ hlt
        apply mul_pos _ ha0
        apply div_pos _ hd
        have hlM : lb < M := lt_of_lt_of_le hyl (hMle y hy)
        by_cases hMu : M > ub
        · have hmu : m < ub := hc.1 hMu.le
          have hd : 0 < M - m := by linarith
          have hn : 0 < ub - m := by linarith
          have hc' : shrinkCorrection |ub - m| |M - m| = (ub - m) / (M - m) := by
            rw [shrinkCorrection, abs_of_pos hd, abs_of_pos hn, if_neg]
            rw [not_lt, div_le_one hd]; linarith
          rw [if_pos hMu, hc'] at hui
          have := (List.map_inj_left.1 hui) M hMm
          rw [mul_div_cancel₀ _ hd.ne'] at this
          linarith
        · obtain ⟨h1, h2⟩ := hab (not_lt.1 hMu)
          subst h1; subst h2
          simp only [one_mul, add_zero] at hMM
          linarith
    · rw [if_neg hml] at h
      refine ⟨a, b, ha0.le, ha1, h.symm, ?_, ?_, fun _ _ _ => ha0⟩
      · intro x hx
        exact ⟨le_trans (not_lt.1 hml) (hm'le _ (List.mem_map.2 ⟨x, hx, rfl⟩)), hub x hx⟩
      · intro hin
        obtain ⟨h1, h2⟩ := hab (hin M hMm).2
        subst h1; subst h2
        rw [← h]; simp

theorem limited_length {p : Pulse K} {u v : List K} (h : p.limited u = .ok v) (hlu : p.lower ≤ p.upper) :
    v.length = u.length := by
  unfold Pulse.limited at h
  split at h
  · obtain ⟨a, b, _, _, rfl, _⟩ := shrinkPulse_spec hlu h
    simp
  · simp only [Except.ok.injEq] at h
    subst h; simp

theorem limited_mem {p : Pulse K} {u v : List K} (h : p.limited u = .ok v) (hlu : p.lower ≤ p.upper) :
    ∀ y ∈ v, p.lower ≤ y ∧ y ≤ p.upper := by
  unfold Pulse.limited at h
  split at h
  · obtain ⟨a, b, _, _, rfl, h2, _⟩ := shrinkPulse_spec hlu h
    intro y hy
    obtain ⟨x, hx, rfl⟩ := List.mem_map.1 hy
    exact h2 x hx
  · simp only [Except.ok.injEq] at h
    subst h
    intro y hy
    obtain ⟨x, _, rfl⟩ := List.mem_map.1 hy
    exact cutSample_mem hlu x

theorem shrinkPulse_exists {lb ub : K} {u : List K} (h : u ≠ []) : ∃ v, shrinkPulse lb ub u = .ok v := by
  obtain ⟨M, hM⟩ := amax_exists h
  obtain ⟨m, hm⟩ := amin_exists h
  unfold shrinkPulse
  simp only [hM, hm, bind, Except.bind]
  split
  · exact ⟨_, rfl⟩
  · set ui := (if M > ub then _ else u : List K) with hui
    have : ui ≠ [] := by rw [hui]; split <;> simp [h]
    obtain ⟨M', hM'⟩ := amax_exists this
    obtain ⟨m', hm'⟩ := amin_exists this
    simp only [hM', hm']
    exact ⟨_, rfl⟩

end
end QuOCS

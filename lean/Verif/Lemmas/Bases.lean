/-
Helper lemmas about the basis expansions.
-/
import Verif.Props.Limits
import Mathlib.Algebra.BigOperators.Group.Finset.Basic
import Mathlib.Algebra.BigOperators.Ring.Finset

set_option linter.unusedSectionVars false

namespace QuOCS

section
variable {K : Type*} [Field K] [LinearOrder K] [IsStrictOrderedRing K]

theorem getIdx_getD {l : List K} {i : ℕ} (h : i < l.length) : getIdx l i = .ok (l.getD i 0) := by
  rw [getIdx_of_lt h]; simp [List.getD_eq_getElem?_getD, h]

theorem zipWith_map_same (f : K → K → K) (g h : K → K) (t : List K) :
    List.zipWith f (t.map g) (t.map h) = t.map (fun s => f (g s) (h s)) := by
  induction t <;> simp_all

theorem zeros_eq_map (t : List K) : (zeros t.length : List K) = t.map (fun _ => 0) := by
  induction t with
  | nil => rfl
  | cons a t ih => simp [zeros, List.replicate_succ] at ih ⊢

/-- Closed form of a basis expansion whose terms are functions of time. -/
theorem sumTerms_map (t : List K) (g : ℕ → K → K) (g0 : K → K) (n : ℕ) (term : ℕ → Py (List K))
    (h : ∀ i < n, term i = .ok (t.map (g i))) :
    sumTerms (t.map g0) n term = .ok (t.map (fun s => g0 s + ∑ i ∈ Finset.range n, g i s)) := by
  unfold sumTerms
  induction n with
  | zero => simp [pure, Except.pure]
  | succ n ih =>
    rw [List.range_succ, List.foldlM_append, ih (fun i hi => h i (by omega))]
    simp only [bind, Except.bind, List.foldlM_cons, List.foldlM_nil, h n (by omega)]
    rw [iadd_eq (by simp)]
    simp only [zipWith_map_same]
    rw [show (pure : List K → Py (List K)) = Except.ok from rfl]
    congr 1
    apply List.map_congr_left
    intro s _
    rw [Finset.sum_range_succ]; ring

theorem sumTerms_zeros (t : List K) (g : ℕ → K → K) (n b : ℕ) (hb : t.length = b) (term : ℕ → Py (List K))
    (h : ∀ i < n, term i = .ok (t.map (g i))) :
    sumTerms (zeros b) n term = .ok (t.map (fun s => ∑ i ∈ Finset.range n, g i s)) := by
  subst hb
  rw [zeros_eq_map, sumTerms_map t g _ n term h]
  simp

/-- An expansion that succeeds evaluated all its terms. -/
theorem sumTerms_ok {init r : List K} {n : ℕ} {term : ℕ → Py (List K)} (h : sumTerms init n term = .ok r) :
    ∀ i < n, ∃ v, term i = .ok v := by
  unfold sumTerms at h
  induction n generalizing r with
  | zero => intro i hi; omega
  | succ n ih =>
    rw [List.range_succ, List.foldlM_append] at h
    obtain ⟨acc, h1, h2⟩ := py_bind_ok.1 h
    simp only [List.foldlM_cons, List.foldlM_nil] at h2
    obtain ⟨_, h3, _⟩ := py_bind_ok.1 h2
    obtain ⟨v, h4, _⟩ := py_bind_ok.1 h3
    intro i hi
    rcases Nat.lt_succ_iff_lt_or_eq.1 hi with h | rfl
    · exact ih h1 i h
    · exact ⟨v, h4⟩

theorem sumTerms_length {init r : List K} {n : ℕ} {term : ℕ → Py (List K)} (h : sumTerms init n term = .ok r) :
    r.length = init.length := by
  unfold sumTerms at h
  induction n generalizing r with
  | zero => simp only [List.range_zero, List.foldlM_nil] at h; rw [py_pure_ok] at h; rw [h]
  | succ n ih =>
    rw [List.range_succ, List.foldlM_append] at h
    obtain ⟨acc, h1, h2⟩ := py_bind_ok.1 h
    simp only [List.foldlM_cons, List.foldlM_nil] at h2
    obtain ⟨r', h3, h5⟩ := py_bind_ok.1 h2
    obtain ⟨v, _, h4⟩ := py_bind_ok.1 h3
    rw [py_pure_ok] at h5; subst h5
    rw [iadd_length h4, ih h1]

theorem uniformDraw_ok {a b : K} {k : ℕ} {rnd w : List K} (h : uniformDraw a b k rnd = .ok w) :
    w.length = k ∧ ∀ i < k, ∃ r, rnd[i]? = some r ∧
      w[i]? = some (a + (i : K) * ((b - a) / (k : K)) + (b - a) / (k : K) * r) := by
  unfold uniformDraw at h
  have key : ∀ (l : List ℕ) (w : List K), l.mapM (fun (i : ℕ) => do
      let r ← getIdx rnd i
      let kBins := (b - a) / (k : K)
      pure (a + (i : K) * kBins + kBins * r)) = (.ok w : Py (List K)) →
      w.length = l.length ∧ ∀ (j i : ℕ), l[j]? = some i → ∃ r, rnd[i]? = some r ∧
        w[j]? = some (a + (i : K) * ((b - a) / (k : K)) + (b - a) / (k : K) * r) := by
    intro l
    induction l with
    | nil =>
      intro w hw
      simp only [List.mapM_nil] at hw
      rw [py_pure_ok] at hw; subst hw
      exact ⟨rfl, by simp⟩
    | cons x l ih =>
      intro w hw
      simp only [List.mapM_cons] at hw
      obtain ⟨v, hv, hw⟩ := py_bind_ok.1 hw
      obtain ⟨r, hr, hv⟩ := py_bind_ok.1 hv
      obtain ⟨ws, hws, hw⟩ := py_bind_ok.1 hw
      rw [py_pure_ok] at hv hw
      subst hv hw
      obtain ⟨h1, h2⟩ := ih ws hws
      refine ⟨by simp [h1], ?_⟩
      intro j i hj
      cases j with
      | zero =>
        simp only [List.getElem?_cons_zero, Option.some.injEq] at hj
        subst hj
        exact ⟨r, getIdx_ok.1 hr, by simp⟩
      | succ j =>
        simp only [List.getElem?_cons_succ] at hj ⊢
        exact h2 j i hj
  obtain ⟨h1, h2⟩ := key _ _ h
  refine ⟨by simpa using h1, ?_⟩
  intro i hi
  exact h2 i i (by simp [hi])

theorem PulseReach.w_length {M : MathFns K} {d : PulseDict K} {p : Pulse K} (h : PulseReach M d p) :
    p.w.length = basisSuper d.basis ∧ p.nParams = basisParams d.binsNumber d.basis ∧
      p.amplitudeVariation = d.amplitudeVariation := by
  induction h with
  | create h =>
    unfold mkPulse at h
    simp only at h
    split at h
    · simp at h
    · simp only [Except.ok.injEq] at h
      subst h
      simp [zeros]
  | inputs x T _ ih => exact ih
  | get _ h ih =>
    unfold Pulse.getPulse at h
    obtain ⟨u, _, h⟩ := py_bind_ok.1 h
    rw [py_pure_ok] at h
    obtain ⟨rfl, rfl⟩ := Prod.mk.inj h
    exact ih
  | bare _ h ih =>
    unfold Pulse.getBarePulse at h
    obtain ⟨u, _, h⟩ := py_bind_ok.1 h
    rw [py_pure_ok] at h
    obtain ⟨rfl, rfl⟩ := Prod.mk.inj h
    exact ih
  | base _ h ih =>
    unfold Pulse.setBasePulse at h
    obtain ⟨u, _, h⟩ := py_bind_ok.1 h
    split at h
    · rw [py_pure_ok] at h; subst h; exact ih
    · obtain ⟨b, _, h⟩ := py_bind_ok.1 h
      rw [py_pure_ok] at h; subst h; exact ih
  | draw hp h ih =>
    unfold Pulse.drawSuper at h
    obtain ⟨u, hu, h⟩ := py_bind_ok.1 h
    rw [py_pure_ok] at h; subst h
    refine ⟨?_, ih.2⟩
    rw [(uniformDraw_ok hu).1, hp.fields.2.2.2.2.2.2.2.2]
  | index mi _ ih => exact ih

theorem getD_zipWith_eq {f : K → K → K} {X Y : List K} (h : X.length = Y.length) (hf : f 0 0 = 0) (i : ℕ) :
    (List.zipWith f X Y).getD i 0 = f (X.getD i 0) (Y.getD i 0) := by
  by_cases hi : i < X.length
  · have hi' : i < Y.length := h ▸ hi
    simp [List.getD_eq_getElem?_getD, List.getElem?_zipWith, hi, hi']
  · have hi' : ¬ i < Y.length := h ▸ hi
    simp only [List.getD_eq_getElem?_getD, List.getElem?_zipWith]
    rw [List.getElem?_eq_none (not_lt.1 hi), List.getElem?_eq_none (not_lt.1 hi')]
    simp [hf]

theorem sum_zipWith_lin (a b : K) (X Y : List K) (h : X.length = Y.length) :
    (List.zipWith (fun s t => a * s + b * t) X Y).sum = a * X.sum + b * Y.sum := by
  induction X generalizing Y with
  | nil => cases Y <;> simp_all
  | cons x X ih =>
    cases Y with
    | nil => simp at h
    | cons y Y =>
      simp only [List.zipWith_cons_cons, List.sum_cons]
      rw [ih Y (by simpa using h)]
      ring

/-! Closed forms of the bases. `t` is the time grid. -/

/-- value of the Fourier expansion at time `s` -/
def fourierVal (M : MathFns K) (n : ℕ) (w X : List K) (T s : K) : K :=
  ∑ i ∈ Finset.range n, (X.getD (2 * i) 0 * M.sin (2 * M.pi * w.getD i 0 * s / T)
    + X.getD (2 * i + 1) 0 * M.cos (2 * M.pi * w.getD i 0 * s / T))

theorem fourier_closed (M : MathFns K) {n b : ℕ} {w X t : List K} {T : K} (hw : w.length = n) (hX : 2 * n ≤ X.length)
    (ht : t.length = b) :
    sumTerms (zeros b) n (fourierTerm M w X t T) = .ok (t.map (fourierVal M n w X T)) := by
  rw [sumTerms_zeros t (fun i s => X.getD (2 * i) 0 * M.sin (2 * M.pi * w.getD i 0 * s / T)
    + X.getD (2 * i + 1) 0 * M.cos (2 * M.pi * w.getD i 0 * s / T)) n b ht]
  · rfl
  · intro i hi
    simp only [fourierTerm]
    rw [getIdx_getD (by omega), getIdx_getD (by omega), getIdx_getD (by omega)]
    rfl

/-- value of the Chebyshev expansion at time `s` -/
def chebyshevVal (M : MathFns K) (n : ℕ) (w X : List K) (T s : K) : K :=
  ∑ i ∈ Finset.range n, X.getD (2 * i) 0 *
    M.cos (w.getD i 0 * M.arccos (-1 + 1 / 10 ^ 10 + (2 * (1 - 1 / 10 ^ 10) * s / T)) + X.getD (2 * i + 1) 0)

theorem chebyshev_closed (M : MathFns K) {n b : ℕ} {w X t : List K} {T : K} (hw : w.length = n) (hX : 2 * n ≤ X.length)
    (ht : t.length = b) :
    sumTerms (zeros b) n (chebyshevTerm M w X t T) = .ok (t.map (chebyshevVal M n w X T)) := by
  rw [sumTerms_zeros t (fun i s => X.getD (2 * i) 0 *
    M.cos (w.getD i 0 * M.arccos (-1 + 1 / 10 ^ 10 + (2 * (1 - 1 / 10 ^ 10) * s / T)) + X.getD (2 * i + 1) 0)) n b ht]
  · rfl
  · intro i hi
    simp only [chebyshevTerm]
    rw [getIdx_getD (by omega), getIdx_getD (by omega), getIdx_getD (by omega)]
    rfl

/-- value of the Sinc expansion at time `s` -/
def sincVal (M : MathFns K) (bm : K) (n : ℕ) (w X : List K) (T s : K) : K :=
  ∑ i ∈ Finset.range n, X.getD i 0 * sincFn M (2 * M.pi * bm * (s - w.getD i 0) / T)

theorem sinc_closed (M : MathFns K) (bm : K) {n b : ℕ} {w X t : List K} {T : K} (hw : w.length = n)
    (hX : n ≤ X.length) (ht : t.length = b) :
    sumTerms (zeros b) n (sincTerm M bm w X t T) = .ok (t.map (sincVal M bm n w X T)) := by
  rw [sumTerms_zeros t (fun i s => X.getD i 0 * sincFn M (2 * M.pi * bm * (s - w.getD i 0) / T)) n b ht]
  · rfl
  · intro i hi
    simp only [sincTerm]
    rw [getIdx_getD (by omega), getIdx_getD (by omega)]
    rfl

/-- value of a sigmoid pulse with step times `taus`, step widths `sigmas` at time `s` -/
def sigmoidVal (M : MathFns K) (n : ℕ) (offset sigma : K) (closing : Bool) (A taus sigmas : List K) (T s : K) : K :=
  (∑ i ∈ Finset.range n, A.getD (i + 1) 0 / 2 * sigStep M (sigmas.getD i 0) (taus.getD i 0) s)
    + A.getD 0 0 / 2 * sigStep M sigma offset s
    + (if closing then -A.sum / 2 * sigStep M sigma (T - offset) s else 0)

theorem sigmoidBuild_closed (M : MathFns K) {n b : ℕ} (offset sigma : K) (closing : Bool) {A taus sigmas t : List K}
    {T : K} (hA : n + 1 ≤ A.length) (hta : n ≤ taus.length) (hsi : n ≤ sigmas.length) (ht : t.length = b) :
    sigmoidBuild M n offset sigma closing b A taus sigmas t T
      = .ok (t.map (sigmoidVal M n offset sigma closing A taus sigmas T)) := by
  unfold sigmoidBuild
  rw [sumTerms_zeros t (fun i s => A.getD (i + 1) 0 / 2 * sigStep M (sigmas.getD i 0) (taus.getD i 0) s) n b ht]
  · simp only [bind, Except.bind]
    rw [getIdx_getD (by omega)]
    simp only
    rw [iadd_eq (by simp), zipWith_map_same]
    simp only
    cases closing with
    | true =>
      simp only [if_true]
      rw [iadd_eq (by simp), zipWith_map_same]
      congr 1
    | false =>
      simp only [Bool.false_eq_true, if_false, pure, Except.pure]
      congr 1
      apply List.map_congr_left
      intro s _
      simp [sigmoidVal]
  · intro i hi
    rw [getIdx_getD (by omega), getIdx_getD (by omega), getIdx_getD (by omega)]
    rfl

theorem sigmoidShape_eq_build (M : MathFns K) (n : ℕ) (offset sigma : K) (bins : ℕ) (w xx t : List K) (T : K)
    (hw : w.length = n) :
    sigmoidShape M n offset sigma bins w xx t T
      = sigmoidBuild M n offset sigma true bins xx w (List.replicate n sigma) t T := by
  unfold sigmoidShape sigmoidBuild
  congr 1
  unfold sumTerms
  have : ∀ (l : List ℕ) (acc : List K), (∀ i ∈ l, i < n) →
      l.foldlM (fun acc i => do iadd acc (← (do
        let a ← getIdx xx (i + 1)
        let wi ← getIdx w i
        pure (t.map (fun s => a / 2 * sigStep M sigma wi s))))) acc
      = l.foldlM (fun acc i => do iadd acc (← (do
        let a ← getIdx xx (i + 1)
        let ti ← getIdx w i
        let si ← getIdx (List.replicate n sigma) i
        pure (t.map (fun s => a / 2 * sigStep M si ti s))))) acc := by
    intro l
    induction l with
    | nil => intros; rfl
    | cons i l ih =>
      intro acc hl
      have hi : i < n := hl i (by simp)
      simp only [List.foldlM_cons]
      have e : (getIdx (List.replicate n sigma) i) = .ok sigma := by
        rw [getIdx_of_lt (by simpa using hi)]; simp
      simp only [e]
      congr 1
      funext acc'
      exact ih acc' (fun j hj => hl j (by simp [hj]))
  exact this _ _ (fun i hi => by simpa using hi)

end
end QuOCS

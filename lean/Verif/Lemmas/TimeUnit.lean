/-
Controls objects in another unit of time.
-/
import Verif.Spec.TimeUnit
import Verif.Lemmas.Recoord
import Verif.Lemmas.Numpy

set_option linter.unusedSectionVars false
set_option linter.unusedVariables false

namespace QuOCS

section
variable {K : Type} [Field K] [LinearOrder K] [IsStrictOrderedRing K] {α : K}

/-- the pulse object in the new unit -/
def Pulse.inTimeUnit (α : K) (p : Pulse K) : Pulse K :=
  { p with guess := p.guess.inTimeUnit α, scaling := p.scaling.inTimeUnit α, basis := p.basis.inTimeUnit α
           wLower := p.basis.superUnit α * p.wLower, wUpper := p.basis.superUnit α * p.wUpper
           w := p.w.map (p.basis.superUnit α * ·), timeGrid := timesInUnit α p.timeGrid, finalTime := α * p.finalTime }

/-- the time object in the new unit -/
def TimeObj.inTimeUnit (α : K) (t : TimeObj K) : TimeObj K := { t with time := α * t.time, timeVariation := α * t.timeVariation }

/-- the controls object in the new unit -/
def Controls.inTimeUnit (α : K) (c : Controls K) : Controls K :=
  { c with pulses := c.pulses.map (Pulse.inTimeUnit α), times := c.times.map fun t => (t.1, t.2.inTimeUnit α) }

theorem timesInUnit_back (hα : 0 < α) (t : List K) : (timesInUnit α t).map (· / α) = t := by
  unfold timesInUnit
  rw [List.map_map]
  conv_rhs => rw [← List.map_id t]
  exact List.map_congr_left fun s _ => by
    show α * s / α = s
    rw [mul_div_cancel_left₀ _ hα.ne']

theorem linspace0_unit (T : K) (n : ℕ) : linspace0 (α * T) n = timesInUnit α (linspace0 T n) := by
  unfold linspace0 timesInUnit
  rw [List.map_map]
  exact List.map_congr_left fun i _ => by
    show (i : K) * (α * T / _) = α * ((i : K) * (T / _))
    ring

theorem getIdx_map {γ δ : Type} (f : γ → δ) (l : List γ) (i : ℕ) : getIdx (l.map f) i = (getIdx l i).map f := by
  unfold getIdx
  rw [List.getElem?_map]
  rcases l[i]? with _ | x <;> rfl

theorem map_mul_one (l : List K) : l.map ((1 : K) * ·) = l := by
  conv_rhs => rw [← List.map_id l]
  exact List.map_congr_left fun s _ => one_mul s

theorem sumTerms_congr {init : List K} {n : ℕ} {f g : ℕ → Py (List K)} (h : ∀ i, f i = g i) : sumTerms init n f = sumTerms init n g := by
  rw [funext h]

theorem fourierTerm_unit (hα : 0 < α) (M : MathFns K) (w xx t : List K) (T : K) (i : ℕ) :
    fourierTerm M w xx (timesInUnit α t) (α * T) i = fourierTerm M w xx t T i := by
  unfold fourierTerm timesInUnit
  have e : ∀ wi s : K, 2 * M.pi * wi * (α * s) / (α * T) = 2 * M.pi * wi * s / T := fun wi s => by
    rw [show 2 * M.pi * wi * (α * s) = α * (2 * M.pi * wi * s) by ring, mul_div_mul_left _ _ hα.ne']
  simp only [List.map_map, Function.comp_def, e]

theorem chebyshevTerm_unit (hα : 0 < α) (M : MathFns K) (w xx t : List K) (T : K) (i : ℕ) :
    chebyshevTerm M w xx (timesInUnit α t) (α * T) i = chebyshevTerm M w xx t T i := by
  unfold chebyshevTerm timesInUnit
  have e : ∀ q s : K, q * (α * s) / (α * T) = q * s / T := fun q s => by
    rw [show q * (α * s) = α * (q * s) by ring, mul_div_mul_left _ _ hα.ne']
  simp only [List.map_map, Function.comp_def, e]

theorem sincTerm_unit (hα : 0 < α) (M : MathFns K) (bm : K) (w xx t : List K) (T : K) (i : ℕ) :
    sincTerm M bm (w.map (α * ·)) xx (timesInUnit α t) (α * T) i = sincTerm M bm w xx t T i := by
  unfold sincTerm timesInUnit
  have e : ∀ wi s : K, 2 * M.pi * bm * (α * s - α * wi) / (α * T) = 2 * M.pi * bm * (s - wi) / T := fun wi s => by
    rw [show 2 * M.pi * bm * (α * s - α * wi) = α * (2 * M.pi * bm * (s - wi)) by ring, mul_div_mul_left _ _ hα.ne']
  rw [getIdx_map]
  rcases getIdx xx i with er | a
  · rfl
  rcases getIdx w i with er | wi
  · rfl
  show Except.ok _ = Except.ok _
  simp only [List.map_map, Function.comp_def, e]

theorem sigStep_unit (hα : 0 < α) (M : MathFns K) (sigma tau s : K) : sigStep M (α * sigma) (α * tau) (α * s) = sigStep M sigma tau s := by
  unfold sigStep
  rw [show α * s - α * tau = α * (s - tau) by ring, show M.sqrt2 * (α * sigma) = α * (M.sqrt2 * sigma) by ring, mul_div_mul_left _ _ hα.ne']

theorem sigRow_unit (hα : 0 < α) (M : MathFns K) (a sigma tau : K) (t : List K) :
    (timesInUnit α t).map (fun s => a * sigStep M (α * sigma) (α * tau) s) = t.map fun s => a * sigStep M sigma tau s := by
  unfold timesInUnit
  rw [List.map_map]
  exact List.map_congr_left fun s _ => by
    show a * sigStep M (α * sigma) (α * tau) (α * s) = _
    rw [sigStep_unit hα]

theorem sigmoidShape_unit (hα : 0 < α) (M : MathFns K) (n : ℕ) (o s : K) (bins : ℕ) (w xx t : List K) (T : K) :
    sigmoidShape M n (α * o) (α * s) bins (w.map (α * ·)) xx (timesInUnit α t) (α * T) = sigmoidShape M n o s bins w xx t T := by
  unfold sigmoidShape
  rw [show α * T - α * o = α * (T - o) by ring]
  simp only [sigRow_unit hα]
  rw [sumTerms_congr (g := fun i => do
    let a ← getIdx xx (i + 1)
    let wi ← getIdx w i
    pure (t.map (fun r => a / 2 * sigStep M s wi r))) fun i => ?_]
  rw [getIdx_map]
  rcases getIdx xx (i + 1) with er | a
  · rfl
  rcases getIdx w i with er | wi
  · rfl
  show Except.ok _ = Except.ok _
  rw [sigRow_unit hα]

theorem sigmoidBuild_unit (hα : 0 < α) (M : MathFns K) (n : ℕ) (o s : K) (cl : Bool) (bins : ℕ) (A taus sigmas t : List K) (T : K) :
    sigmoidBuild M n (α * o) (α * s) cl bins A (timesInUnit α taus) (timesInUnit α sigmas) (timesInUnit α t) (α * T) =
      sigmoidBuild M n o s cl bins A taus sigmas t T := by
  unfold sigmoidBuild
  rw [show α * T - α * o = α * (T - o) by ring]
  simp only [sigRow_unit hα]
  rw [sumTerms_congr (g := fun i => do
    let a ← getIdx A (i + 1)
    let ti ← getIdx taus i
    let si ← getIdx sigmas i
    pure (t.map (fun r => a / 2 * sigStep M si ti r))) fun i => ?_]
  rw [timesInUnit, getIdx_map, timesInUnit, getIdx_map]
  rcases getIdx A (i + 1) with er | a
  · rfl
  rcases getIdx taus i with er | ti
  · rfl
  rcases getIdx sigmas i with er | si
  · rfl
  exact congrArg Except.ok (sigRow_unit hα M (a / 2) si ti t)

theorem bop_add_unit (a b : List K) : bop (· + ·) (timesInUnit α a) (timesInUnit α b) = (bop (· + ·) a b).map (timesInUnit α) := by
  unfold bop timesInUnit
  simp only [List.length_map]
  split
  · show Except.ok _ = Except.ok (List.map _ _)
    rw [List.zipWith_map, List.map_zipWith]
    simp only [mul_add]
  · split
    · rcases a with _ | ⟨x, _ | ⟨y, a⟩⟩
      · rfl
      · show Except.ok _ = Except.ok _
        simp only [List.map_map, Function.comp_def, mul_add]
      · rfl
    · split
      · rcases b with _ | ⟨x, _ | ⟨y, b⟩⟩
        · rfl
        · show Except.ok _ = Except.ok _
          simp only [List.map_map, Function.comp_def, mul_add]
        · rfl
      · rfl

theorem iadd_unit (a b : List K) : iadd (timesInUnit α a) (timesInUnit α b) = (iadd a b).map (timesInUnit α) := by
  unfold iadd timesInUnit
  simp only [List.length_map]
  split
  · show Except.ok _ = Except.ok (List.map _ _)
    rw [List.zipWith_map, List.map_zipWith]
    simp only [mul_add]
  · rcases b with _ | ⟨x, _ | ⟨y, b⟩⟩
    · rfl
    · show Except.ok _ = Except.ok _
      simp only [List.map_map, Function.comp_def, mul_add]
    · rfl

theorem rescaleTaus_unit (hα : 0 < α) (o T : K) (taus : List K) :
    rescaleTaus (α * o) (α * T) (timesInUnit α taus) = (rescaleTaus o T taus).map (timesInUnit α) := by
  unfold rescaleTaus
  have hs : (timesInUnit α taus).insertionSort (· ≤ ·) = timesInUnit α (taus.insertionSort (· ≤ ·)) :=
    (List.map_insertionSort (r := (· ≤ ·)) (s := (· ≤ ·)) (α * ·) taus fun a _ b _ => (mul_le_mul_iff_right₀ hα).symm).symm
  rw [hs]
  have hlt : ∀ a b : K, α * a < α * b ↔ a < b := fun a b => mul_lt_mul_iff_right₀ hα
  have hTo : α * T - α * o = α * (T - o) := by ring
  rcases taus.insertionSort (· ≤ ·) with _ | ⟨s0, _ | ⟨s1, rest⟩⟩
  · rfl
  · show (if α * s0 < α * o then _ else if α * s0 > α * T - α * o then _ else _ : Py (List K)) = _
    rw [hTo]
    simp only [gt_iff_lt, hlt]
    split
    · rfl
    · split
      · rfl
      · rfl
  · have hl : ∀ h, (α * s1 :: List.map (α * ·) rest).getLast h = α * (s1 :: rest).getLast (by simp) := fun h =>
      List.getLast_map (f := (α * ·)) (l := s1 :: rest) h
    simp only [timesInUnit, List.map_cons, hl, hTo, gt_iff_lt, hlt]
    split
    · show Except.ok _ = Except.ok (List.map _ _)
      generalize (s1 :: rest).getLast _ = sN
      have e1 : (if sN < T - o then α * (T - o) else α * sN) = α * (if sN < T - o then T - o else sN) := by split <;> rfl
      have e2 : (if o < s0 then α * o else α * s0) = α * (if o < s0 then o else s0) := by split <;> rfl
      rw [e1, e2]
      generalize (if sN < T - o then T - o else sN) = a
      generalize (if o < s0 then o else s0) = b
      congr 1
      rw [List.map_map, List.map_map]
      refine List.map_congr_left fun τ _ => ?_
      show α * T / 2 + (α * τ - (α * a - α * b) / 2 - α * b) * 2 * (α * T / 2 - α * o) / (α * a - α * b) =
        α * (T / 2 + (τ - (a - b) / 2 - b) * 2 * (T / 2 - o) / (a - b))
      rw [show (α * τ - (α * a - α * b) / 2 - α * b) * 2 * (α * T / 2 - α * o) = α * (α * ((τ - (a - b) / 2 - b) * 2 * (T / 2 - o))) by ring,
        show α * a - α * b = α * (a - b) by ring, mul_div_mul_left _ _ hα.ne']
      ring
    · rfl

theorem zeros_unit (n : ℕ) : timesInUnit α (zeros n) = zeros n := by
  unfold timesInUnit zeros
  rw [List.map_replicate, mul_zero]

theorem limitSigmas_unit (hα : 0 < α) (M : MathFns K) (o s T : K) (taus del : List K) :
    limitSigmas M (α * o) (α * s) (α * T) true (timesInUnit α taus) del = (limitSigmas M o s T true taus del).map (timesInUnit α) := by
  unfold limitSigmas
  rw [if_pos rfl, if_pos rfl]
  generalize List.range del.length = l
  induction l with
  | nil => rfl
  | cons i l ih =>
    rw [List.mapM_cons, List.mapM_cons, ih, timesInUnit, getIdx_map]
    generalize (List.mapM _ l : Py (List K)) = R
    rcases getIdx taus i with er | τ
    · rfl
    rcases getIdx del i with er | d
    · rfl
    rcases R with er | R
    · rfl
    show Except.ok _ = Except.ok _
    unfold timesInUnit
    rw [List.map_cons]
    congr 2
    have e : |α * T / 2 - α * τ| = α * |T / 2 - τ| := by
      rw [show α * T / 2 - α * τ = α * (T / 2 - τ) by ring, abs_mul, abs_of_pos hα]
    rw [e, mul_div_mul_left _ _ hα.ne']
    ring

theorem replicate_unit (n : ℕ) (s : K) : timesInUnit α (List.replicate n s) = List.replicate n (α * s) := by
  unfold timesInUnit
  rw [List.map_replicate]

theorem sigmoidTimeDepShape_unit (hα : 0 < α) (M : MathFns K) (n : ℕ) (o s tv av : K) (bins : ℕ) (w xx t : List K) (T : K) :
    sigmoidTimeDepShape M n (α * o) (α * s) (α * tv) av bins (timesInUnit α w) xx (timesInUnit α t) (α * T) =
      sigmoidTimeDepShape M n o s tv av bins w xx t T := by
  unfold sigmoidTimeDepShape
  have e : ∀ l : List K, l.map (fun x => x * (α * tv) / av) = timesInUnit α (l.map fun x => x * tv / av) := fun l => by
    unfold timesInUnit
    rw [List.map_map]
    exact List.map_congr_left fun x _ => by show _ = α * (x * tv / av); ring
  dsimp only
  rw [e, bop_add_unit, ← replicate_unit]
  rcases bop (· + ·) w (List.map (fun x => x * tv / av) (List.drop ((xx.length + 1) / 2) xx)) with er | ts
  · rfl
  show (rescaleTaus (α * o) (α * T) (timesInUnit α ts) >>= _) = (rescaleTaus o T ts >>= _)
  rw [rescaleTaus_unit hα]
  rcases rescaleTaus o T ts with er | ts'
  · rfl
  exact sigmoidBuild_unit hα ..

theorem sigmoidSigmasShape_unit (hα : 0 < α) (M : MathFns K) (n : ℕ) (o s sv : K) (bins : ℕ) (w xx t : List K) (T : K)
    (h1 : 1 / 10 ^ 10 ≤ o) (h2 : 1 / 10 ^ 10 ≤ α * o) :
    sigmoidSigmasShape M n (α * o) (α * s) sv bins (timesInUnit α w) xx (timesInUnit α t) (α * T) =
      sigmoidSigmasShape M n o s sv bins w xx t T := by
  unfold sigmoidSigmasShape
  dsimp only
  rw [decide_eq_true (show α * o ≥ 1 / 10 ^ 10 from h2), decide_eq_true (show o ≥ 1 / 10 ^ 10 from h1), limitSigmas_unit hα]
  rcases limitSigmas M o s T true w _ with er | sg
  · rfl
  exact sigmoidBuild_unit hα ..

theorem sigmoidAllParasShape_unit (hα : 0 < α) (M : MathFns K) (n : ℕ) (o s tv sv av : K) (bins : ℕ) (w xx t : List K) (T : K)
    (h1 : 1 / 10 ^ 10 ≤ α * o ↔ 1 / 10 ^ 10 ≤ o) (h2 : 1 / 10 ^ 10 < α * tv ↔ 1 / 10 ^ 10 < tv)
    (h3 : 1 / 10 ^ 10 < sv → 1 / 10 ^ 10 ≤ o) :
    sigmoidAllParasShape M n (α * o) (α * s) (α * tv) sv av bins (timesInUnit α w) xx (timesInUnit α t) (α * T) =
      sigmoidAllParasShape M n o s tv sv av bins w xx t T := by
  unfold sigmoidAllParasShape
  have e : ∀ l : List K, l.map (fun x => x * (α * tv) / av) = timesInUnit α (l.map fun x => x * tv / av) := fun l => by
    unfold timesInUnit
    rw [List.map_map]
    exact List.map_congr_left fun x _ => by show _ = α * (x * tv / av); ring
  have d1 : decide (α * o ≥ 1 / 10 ^ 10) = decide (o ≥ 1 / 10 ^ 10) := decide_eq_decide.2 h1
  have d2 : decide (α * tv > 1 / 10 ^ 10) = decide (tv > 1 / 10 ^ 10) := decide_eq_decide.2 h2
  have hl : (timesInUnit α w).length = w.length := by simp [timesInUnit]
  dsimp only
  rw [d1, d2, hl]
  simp only [e]
  have hd : ∀ b c : Bool, ∀ l l' : List K, (if b = true then if c = true then timesInUnit α l else timesInUnit α l' else zeros w.length) =
      timesInUnit α (if b = true then if c = true then l else l' else zeros w.length) := by
    intro b c l l'
    cases b <;> cases c <;> simp [zeros_unit]
  rw [hd]
  generalize (if decide (tv > 1 / 10 ^ 10) = true then
      if decide (sv > 1 / 10 ^ 10) = true then List.map (fun x => x * tv / av) (List.take w.length (List.drop (w.length + 1) xx))
      else List.map (fun x => x * tv / av) (List.drop (w.length + 1) xx) else zeros w.length) = dt
  generalize (if (decide (tv > 1 / 10 ^ 10) || decide (sv > 1 / 10 ^ 10)) = true then List.take (w.length + 1) xx else xx) = A
  have key : ∀ taus : List K, ∀ ds : List K, (decide (sv > 1 / 10 ^ 10) = false → ds = zeros w.length) →
      (do let sigmas ← limitSigmas M (α * o) (α * s) (α * T) (decide (sv > 1 / 10 ^ 10) && decide (o ≥ 1 / 10 ^ 10)) (timesInUnit α taus) ds
          sigmoidBuild M n (α * o) (α * s) (decide (o ≥ 1 / 10 ^ 10)) bins A (timesInUnit α taus) sigmas (timesInUnit α t) (α * T)) =
      (do let sigmas ← limitSigmas M o s T (decide (sv > 1 / 10 ^ 10) && decide (o ≥ 1 / 10 ^ 10)) taus ds
          sigmoidBuild M n o s (decide (o ≥ 1 / 10 ^ 10)) bins A taus sigmas t T) := by
    intro taus ds hds
    have hsg : limitSigmas M (α * o) (α * s) (α * T) (decide (sv > 1 / 10 ^ 10) && decide (o ≥ 1 / 10 ^ 10)) (timesInUnit α taus) ds =
        (limitSigmas M o s T (decide (sv > 1 / 10 ^ 10) && decide (o ≥ 1 / 10 ^ 10)) taus ds).map (timesInUnit α) := by
      by_cases hsv : sv > 1 / 10 ^ 10
      · rw [decide_eq_true hsv, decide_eq_true (show o ≥ 1 / 10 ^ 10 from h3 hsv)]
        exact limitSigmas_unit hα ..
      · rw [hds (decide_eq_false hsv), decide_eq_false hsv, Bool.false_and]
        unfold limitSigmas zeros
        rw [if_neg (by simp), if_neg (by simp)]
        show Except.ok _ = Except.ok _
        rw [List.map_replicate, List.map_replicate, zero_add, zero_add, replicate_unit]
    rw [hsg]
    rcases limitSigmas M o s T (decide (sv > 1 / 10 ^ 10) && decide (o ≥ 1 / 10 ^ 10)) taus ds with er | sg
    · rfl
    · exact sigmoidBuild_unit hα ..
  generalize hD : (if decide (tv > 1 / 10 ^ 10) = true then
      if decide (sv > 1 / 10 ^ 10) = true then List.map (fun x => |x| * sv / av) (List.drop (2 * w.length + 1) xx) else zeros w.length
      else if decide (sv > 1 / 10 ^ 10) = true then List.map (fun x => |x| * sv / av) (List.drop (w.length + 1) xx) else zeros w.length) = ds
  have hds : decide (sv > 1 / 10 ^ 10) = false → ds = zeros w.length := by
    intro h
    rw [← hD, h]
    simp
  by_cases hτ : decide (tv > 1 / 10 ^ 10) = true
  · rw [if_pos hτ, if_pos hτ, iadd_unit]
    rcases iadd w dt with er | ts
    · rfl
    show (rescaleTaus (α * o) (α * T) (timesInUnit α ts) >>= _) = (rescaleTaus o T ts >>= _)
    rw [rescaleTaus_unit hα]
    rcases rescaleTaus o T ts with er | ts'
    · rfl
    exact key ts' ds hds
  · rw [if_neg hτ, if_neg hτ]
    exact key w ds hds

theorem basisParams_unit (bins : ℕ) {b : Basis K} (h : b.UnitFree α) : basisParams bins (b.inTimeUnit α) = basisParams bins b := by
  cases b <;> try rfl
  obtain ⟨-, h, -⟩ := h
  simp only [Basis.inTimeUnit, basisParams, gt_iff_lt, h]

theorem basisSuper_unit (b : Basis K) : basisSuper (b.inTimeUnit α) = basisSuper b := by cases b <;> rfl

theorem basisScale_unit (M : MathFns K) (av : K) (n : ℕ) (b : Basis K) : basisScale M av n (b.inTimeUnit α) = basisScale M av n b := by
  cases b <;> rfl

theorem isChopped_unit (b : Basis K) : (b.inTimeUnit α).isChopped = b.isChopped := by cases b <;> rfl

variable (M : MathFns K)

theorem limited_unit (p : Pulse K) (u : List K) : (p.inTimeUnit α).limited u = p.limited u := rfl

theorem initialGuess_unit (hα : 0 < α) (p : Pulse K) : (p.inTimeUnit α).initialGuess = p.initialGuess := by
  unfold Pulse.initialGuess
  show (match p.guess.inTimeUnit α with
    | .callable f => (p.inTimeUnit α).limited (f (timesInUnit α p.timeGrid))
    | .array l => (p.inTimeUnit α).limited l) = _
  rcases p.guess with f | l
  · show p.limited (f _) = p.limited (f _)
    rw [timesInUnit_back hα]
  · rfl

theorem addInitialGuess_unit (hα : 0 < α) (p : Pulse K) (u : List K) : (p.inTimeUnit α).addInitialGuess u = p.addInitialGuess u := by
  unfold Pulse.addInitialGuess
  rw [initialGuess_unit hα]

theorem scale_unit (hα : 0 < α) (p : Pulse K) (u : List K) : (p.inTimeUnit α).scale u = p.scale u := by
  unfold Pulse.scale
  show (match p.scaling.inTimeUnit α with
    | .callable f => bop (· * ·) (f (timesInUnit α p.timeGrid)) u
    | .callable2 f => .ok (f (timesInUnit α p.timeGrid) u)
    | .array l => bop (· * ·) l u) = _
  rcases p.scaling with f | f | l
  · show bop (· * ·) (f _) u = bop (· * ·) (f _) u
    rw [timesInUnit_back hα]
  · show Except.ok (f _ u) = Except.ok (f _ u)
    rw [timesInUnit_back hα]
  · rfl

theorem shaped_unit (hα : 0 < α) (p : Pulse K) (h : p.basis.UnitFree α) : (p.inTimeUnit α).shaped M = p.shaped M := by
  have hg := initialGuess_unit hα p
  have ha := addInitialGuess_unit hα p
  rcases p with ⟨a1, a2, bins, a4, a5, a6, a7, a8, a9, a10, a11, b, a13, a14, a15, a16, a17, w, a19, a20, a21, t, T, xx⟩
  unfold Pulse.shaped
  rw [hg]
  simp only [ha, limited_unit]
  cases b with
  | fourier n => simp only [Pulse.inTimeUnit, Basis.inTimeUnit, Basis.superUnit, map_mul_one]; exact sumTerms_congr fun i => fourierTerm_unit hα ..
  | chebyshev n => simp only [Pulse.inTimeUnit, Basis.inTimeUnit, Basis.superUnit, map_mul_one]; exact sumTerms_congr fun i => chebyshevTerm_unit hα ..
  | sinc n bm => exact sumTerms_congr fun i => sincTerm_unit hα ..
  | walsh n =>
    simp only [Pulse.inTimeUnit, Basis.inTimeUnit, Basis.superUnit, map_mul_one]
    rw [sumTerms_congr fun i => fourierTerm_unit hα M w xx t T i]
  | piecewise => rfl
  | sigmoid n o s => exact sigmoidShape_unit hα ..
  | sigmoidTimeDep n o s tv => exact sigmoidTimeDepShape_unit hα ..
  | sigmoidSigmas n o s sv => exact sigmoidSigmasShape_unit hα M n o s sv bins w xx t T h.1 h.2
  | sigmoidAllParas n o s tv sv => exact sigmoidAllParasShape_unit hα M n o s tv sv a6 bins w xx t T h.1 h.2.1 h.2.2
  | custom n m f => simp only [Pulse.inTimeUnit, Basis.inTimeUnit, Basis.superUnit, map_mul_one]; exact h w xx t T

theorem applyStep_unit (hα : 0 < α) (p : Pulse K) (h : p.basis.UnitFree α) (u : List K) (s : Shaping) :
    (p.inTimeUnit α).applyStep M u s = p.applyStep M u s := by
  cases s with
  | addInitialGuess => exact addInitialGuess_unit hα p u
  | addBasePulse => rfl
  | addNewUpdatePulse => simp only [Pulse.applyStep, shaped_unit M hα p h]
  | scalePulse => exact scale_unit hα p u
  | limitPulse => rfl

theorem build_unit (hα : 0 < α) (p : Pulse K) (h : p.basis.UnitFree α) : (p.inTimeUnit α).build M = p.build M := by
  unfold Pulse.build
  simp only [applyStep_unit M hα p h]
  rfl

theorem setInputs_unit (p : Pulse K) (x : List K) (T : K) : (p.inTimeUnit α).setInputs x (α * T) = (p.setInputs x T).inTimeUnit α := by
  unfold Pulse.setInputs Pulse.inTimeUnit
  dsimp only
  rw [linspace0_unit]

theorem getPulse_unit (hα : 0 < α) (p : Pulse K) (h : p.basis.UnitFree α) (x : List K) (T : K) :
    (p.inTimeUnit α).getPulse M x (α * T) = (p.getPulse M x T).map fun r => (r.1.inTimeUnit α, r.2) := by
  unfold Pulse.getPulse
  dsimp only
  rw [setInputs_unit, build_unit M hα _ (show (p.setInputs x T).basis.UnitFree α from h)]
  rcases (p.setInputs x T).build M with er | u <;> rfl

theorem setBasePulse_unit (hα : 0 < α) (p : Pulse K) (h : p.basis.UnitFree α) (x : List K) (T : K) :
    (p.inTimeUnit α).setBasePulse M x (α * T) = (p.setBasePulse M x T).map (Pulse.inTimeUnit α) := by
  unfold Pulse.setBasePulse
  dsimp only
  rw [setInputs_unit, shaped_unit M hα _ (show (p.setInputs x T).basis.UnitFree α from h)]
  rcases (p.setInputs x T).shaped M with er | u
  · rfl
  simp only [bind, Except.bind]
  rw [show ((p.setInputs x T).inTimeUnit α).overwrite = (p.setInputs x T).overwrite from rfl,
    show ((p.setInputs x T).inTimeUnit α).basePulse = (p.setInputs x T).basePulse from rfl]
  split
  · rfl
  · rcases iadd (p.setInputs x T).basePulse u with er | b <;> rfl

theorem drawSuper_unit (p : Pulse K) (rnd : List K) : (p.inTimeUnit α).drawSuper rnd = (p.drawSuper rnd).map (Pulse.inTimeUnit α) := by
  unfold Pulse.drawSuper uniformDraw
  rw [show basisSuper (p.inTimeUnit α).basis = basisSuper p.basis from basisSuper_unit _]
  have key : ∀ (k : ℕ) (l : List ℕ), l.mapM (fun (i : ℕ) => do
      let r ← getIdx rnd i
      let kBins := ((p.inTimeUnit α).wUpper - (p.inTimeUnit α).wLower) / (k : K)
      pure ((p.inTimeUnit α).wLower + (i : K) * kBins + kBins * r)) =
      (l.mapM (fun (i : ℕ) => do
        let r ← getIdx rnd i
        let kBins := (p.wUpper - p.wLower) / (k : K)
        pure (p.wLower + (i : K) * kBins + kBins * r) : ℕ → Py K)).map (List.map (p.basis.superUnit α * ·)) := by
    intro k l
    induction l with
    | nil => rfl
    | cons i l ih =>
      rw [List.mapM_cons, List.mapM_cons, ih]
      rcases getIdx rnd i with er | r
      · rfl
      generalize (List.mapM _ l : Py (List K)) = R
      rcases R with er | R
      · rfl
      show Except.ok _ = Except.ok _
      rw [List.map_cons]
      congr 2
      simp only [Pulse.inTimeUnit]
      ring
  rw [key]
  generalize (List.mapM _ (List.range (basisSuper p.basis)) : Py (List K)) = R
  rcases R with er | R <;> rfl

theorem getTime_unit (t : TimeObj K) : (t.inTimeUnit α).getTime = α * t.getTime := by
  unfold TimeObj.getTime TimeObj.inTimeUnit
  dsimp only
  split
  · ring
  · rfl

/-- the dictionary of times in the new unit -/
def timesDictInUnit (α : K) (ts : List (String × TimeObj K)) : List (String × TimeObj K) := ts.map fun t => (t.1, t.2.inTimeUnit α)

theorem setTimes_unit (x : List K) (ts : List (String × TimeObj K)) : setTimes x (timesDictInUnit α ts) = (setTimes x ts).map (timesDictInUnit α) := by
  unfold setTimes timesDictInUnit
  induction ts with
  | nil => rfl
  | cons t ts ih =>
    rw [List.map_cons, List.mapM_cons, List.mapM_cons, ih]
    generalize (List.mapM _ ts : Py (List (String × TimeObj K))) = R
    show ((if t.2.isOptimization then _ else _ : Py (String × TimeObj K)) >>= _) = _
    split
    · show ((gather x t.2.alpha.ctrlList >>= fun v => t.2.alpha.setParameter v >>= fun a => _) >>= _) = _
      rcases gather x t.2.alpha.ctrlList with er | v
      · rfl
      simp only [bind, Except.bind]
      rcases t.2.alpha.setParameter v with er | a
      · rfl
      rcases R with er | R <;> rfl
    · rcases R with er | R <;> rfl

theorem dictGet_unit (ts : List (String × TimeObj K)) (k : String) :
    dictGet (timesDictInUnit α ts) k = (dictGet ts k).map (TimeObj.inTimeUnit α) := by
  unfold dictGet timesDictInUnit
  have : (ts.map fun t => (t.1, t.2.inTimeUnit α)).lookup k = (ts.lookup k).map (TimeObj.inTimeUnit α) := by
    induction ts with
    | nil => rfl
    | cons t ts ih =>
      rw [List.map_cons, List.lookup_cons, List.lookup_cons, ih]
      cases k == t.1 <;> rfl
  rw [this]
  rcases ts.lookup k with _ | t <;> rfl

theorem dictSet_unit (ts : List (String × TimeObj K)) (k : String) (v : TimeObj K) :
    dictSet (timesDictInUnit α ts) k (v.inTimeUnit α) = timesDictInUnit α (dictSet ts k v) := by
  induction ts with
  | nil => rfl
  | cons t ts ih =>
    show (if t.1 = k then _ else _) = timesDictInUnit α (if t.1 = k then _ else _)
    split
    · rfl
    · exact congrArg _ ih

theorem mkTime_unit (hα : 0 < α) (d : TimeDict K) : mkTime (d.inTimeUnit α) = (mkTime d).map (TimeObj.inTimeUnit α) := by
  unfold mkTime TimeDict.inTimeUnit
  dsimp only
  have e : ∀ a b c : K, (α * a - α * b) / (α * c) = (a - b) / c := fun a b c => by rw [← mul_sub, mul_div_mul_left _ _ hα.ne']
  have e2 : α * d.upper - α * d.lower = α * (d.upper - d.lower) := by ring
  rw [e2]
  simp only [mul_eq_zero, hα.ne', false_or]
  split
  · rfl
  · show Except.ok _ = Except.ok _
    rw [e, e, mul_div_mul_left _ _ hα.ne']
    rfl

theorem mkTimes_unit (hα : 0 < α) (td : List (TimeDict K)) : ∀ acc,
    mkTimes (td.map (TimeDict.inTimeUnit α)) (timesDictInUnit α acc) = (mkTimes td acc).map (timesDictInUnit α) := by
  induction td with
  | nil => intro acc; rfl
  | cons d td ih =>
    intro acc
    show (mkTime (d.inTimeUnit α) >>= _) = Except.map _ (mkTime d >>= _)
    rw [mkTime_unit hα]
    rcases mkTime d with er | t
    · rfl
    show mkTimes _ (dictSet (timesDictInUnit α acc) d.name (t.inTimeUnit α)) = Except.map _ (mkTimes td (dictSet acc d.name t))
    rw [dictSet_unit, ih]

theorem mkPulse_unit (mi : ℤ) {d : PulseDict K} (h : d.basis.UnitFree α) :
    mkPulse M mi (d.inTimeUnit α) = (mkPulse M mi d).map (Pulse.inTimeUnit α) := by
  unfold mkPulse
  dsimp only
  rw [show basisParams (d.inTimeUnit α).binsNumber (d.inTimeUnit α).basis = basisParams d.binsNumber d.basis from basisParams_unit _ h]
  split
  · rfl
  · show Except.ok _ = Except.ok _
    unfold Pulse.inTimeUnit
    dsimp only
    rw [show zeros (basisSuper (d.inTimeUnit α).basis) = (zeros (basisSuper d.basis)).map (d.basis.superUnit α * ·) from by
        rw [show basisSuper (d.inTimeUnit α).basis = basisSuper d.basis from basisSuper_unit _]
        simp [zeros],
      show basisScale M (d.inTimeUnit α).amplitudeVariation (basisParams d.binsNumber d.basis) (d.inTimeUnit α).basis =
        basisScale M d.amplitudeVariation (basisParams d.binsNumber d.basis) d.basis from basisScale_unit ..,
      zeros_unit, mul_zero]
    rfl

theorem mkPulses_unit (pd : List (PulseDict K)) (h : ∀ d ∈ pd, d.basis.UnitFree α) : ∀ mi,
    mkPulses M mi (pd.map (PulseDict.inTimeUnit α)) = (mkPulses M mi pd).map fun r => (r.1.map (Pulse.inTimeUnit α), r.2) := by
  induction pd with
  | nil => intro mi; rfl
  | cons d pd ih =>
    intro mi
    show (mkPulse M mi (d.inTimeUnit α) >>= _) = Except.map _ (mkPulse M mi d >>= _)
    rw [mkPulse_unit M mi (h d List.mem_cons_self)]
    rcases mkPulse M mi d with er | p
    · rfl
    show (mkPulses M p.lastIndex (pd.map _) >>= _) = Except.map _ (mkPulses M p.lastIndex pd >>= _)
    rw [ih fun e he => h e (List.mem_cons_of_mem _ he)]
    rcases mkPulses M p.lastIndex pd with er | r <;> rfl

theorem mkPulses_basis {pd : List (PulseDict K)} {P : Basis K → Prop} (h : ∀ d ∈ pd, P d.basis) : ∀ {mi r}, mkPulses M mi pd = .ok r →
    ∀ p ∈ r.1, P p.basis := by
  induction pd with
  | nil => intro mi r hr; cases hr; simp
  | cons d pd ih =>
    intro mi r hr
    obtain ⟨p, h1, hr⟩ := py_bind_ok.1 hr
    obtain ⟨q, h2, hr⟩ := py_bind_ok.1 hr
    cases hr
    intro p' hp'
    rcases List.mem_cons.1 hp' with rfl | hp'
    · unfold mkPulse at h1
      dsimp only at h1
      split at h1
      · cases h1
      · cases h1
        exact h d List.mem_cons_self
    · exact ih (fun e he => h e (List.mem_cons_of_mem _ he)) h2 p' hp'

/-- the controls of the same run in the new unit of time -/
def TimeUnitOf (α : K) (c c' : Controls K) : Prop := (∀ p ∈ c.pulses, p.basis.UnitFree α) ∧ c' = c.inTimeUnit α

theorem mkControls_unit (hα : 0 < α) {pd : List (PulseDict K)} {td : List (TimeDict K)} {rd : List (ParamDict K)}
    (h : ∀ d ∈ pd, d.basis.UnitFree α) :
    RelPy (TimeUnitOf α) (mkControls M pd td rd) (mkControls M (pd.map (PulseDict.inTimeUnit α)) (td.map (TimeDict.inTimeUnit α)) rd) := by
  unfold mkControls
  rw [mkPulses_unit M pd h]
  rcases hp : mkPulses M (-1) pd with er | r
  · rfl
  simp only [bind, Except.bind, Except.map]
  rw [show mkTimes (td.map (TimeDict.inTimeUnit α)) [] = (mkTimes td []).map (timesDictInUnit α) from mkTimes_unit hα td []]
  rcases mkTimes td [] with er | ts
  · rfl
  exact ⟨mkPulses_basis M h hp, rfl⟩

theorem mapM_unit {β γ δ ε : Type} {l : List β} {g : β → γ} {f : β → Py δ} {f' : γ → Py ε} {q : δ → ε} (h : ∀ a ∈ l, f' (g a) = (f a).map q) :
    (l.map g).mapM f' = (l.mapM f).map (List.map q) := by
  induction l with
  | nil => rfl
  | cons a l ih =>
    rw [List.map_cons, List.mapM_cons, List.mapM_cons, h a List.mem_cons_self, ih fun b hb => h b (List.mem_cons_of_mem _ hb)]
    rcases f a with er | d
    · rfl
    rcases l.mapM f with er | ds <;> rfl

theorem mapM_keeps {β δ : Type} {l : List β} {f : β → Py δ} {Q : δ → Prop} (h : ∀ a ∈ l, ∀ b, f a = .ok b → Q b) :
    ∀ r, l.mapM f = .ok r → ∀ b ∈ r, Q b := by
  induction l with
  | nil => intro r hr; cases hr; simp
  | cons a l ih =>
    intro r hr
    rw [List.mapM_cons] at hr
    obtain ⟨d, h1, hr⟩ := py_bind_ok.1 hr
    obtain ⟨ds, h2, hr⟩ := py_bind_ok.1 hr
    cases hr
    intro b hb
    rcases List.mem_cons.1 hb with rfl | hb
    · exact h a List.mem_cons_self _ h1
    · exact ih (fun a ha => h a (List.mem_cons_of_mem _ ha)) _ h2 b hb

theorem getControls_unit (hα : 0 < α) {c c' : Controls K} (h : TimeUnitOf α c c') (x : List K) :
    RelPy (fun p q => TimeUnitOf α p.1 q.1 ∧ q.2 = p.2.inTimeUnit α) (c.getControls M x) (c'.getControls M x) := by
  obtain ⟨h, rfl⟩ := h
  unfold Controls.getControls
  rw [show (c.inTimeUnit α).times = timesDictInUnit α c.times from rfl, setTimes_unit,
    show (c.inTimeUnit α).pulses = c.pulses.map (Pulse.inTimeUnit α) from rfl, show (c.inTimeUnit α).params = c.params from rfl]
  rcases setTimes x c.times with er | ts
  · rfl
  simp only [bind, Except.bind, Except.map]
  have hf : ∀ p ∈ c.pulses, (do
      let v ← gather x (p.inTimeUnit α).ctrlList
      let t ← dictGet (timesDictInUnit α ts) (p.inTimeUnit α).timeName
      (p.inTimeUnit α).getPulse M v t.getTime) = (do
      let v ← gather x p.ctrlList
      let t ← dictGet ts p.timeName
      p.getPulse M v t.getTime : Py (Pulse K × List K)).map fun r => (r.1.inTimeUnit α, r.2) := by
    intro p hp
    show (gather x p.ctrlList >>= fun v => dictGet (timesDictInUnit α ts) p.timeName >>= _) = _
    rw [dictGet_unit]
    rcases gather x p.ctrlList with er | v
    · rfl
    rcases dictGet ts p.timeName with er | t
    · rfl
    show (p.inTimeUnit α).getPulse M v (t.inTimeUnit α).getTime = _
    rw [getTime_unit, getPulse_unit M hα p (h p hp)]
    rfl
  have hm := mapM_unit (g := Pulse.inTimeUnit α) (q := fun r => (r.1.inTimeUnit α, r.2)) (f := fun p => do
      let v ← gather x p.ctrlList
      let t ← dictGet ts p.timeName
      p.getPulse M v t.getTime) (f' := fun p => do
      let v ← gather x p.ctrlList
      let t ← dictGet (timesDictInUnit α ts) p.timeName
      p.getPulse M v t.getTime) hf
  have hk := mapM_keeps (l := c.pulses) (Q := fun r : Pulse K × List K => r.1.basis.UnitFree α) (f := fun p => do
      let v ← gather x p.ctrlList
      let t ← dictGet ts p.timeName
      p.getPulse M v t.getTime) fun p hp b hb => by
    obtain ⟨v, -, hb⟩ := py_bind_ok.1 hb
    obtain ⟨t, -, hb⟩ := py_bind_ok.1 hb
    obtain ⟨u, -, hb⟩ := py_bind_ok.1 hb
    cases hb
    exact h p hp
  simp only [bind, Except.bind] at hm hk
  rw [hm]
  rcases hps : List.mapM _ c.pulses with er | ps
  · rfl
  simp only [Except.map]
  rcases List.mapM _ c.params with er | prs
  · rfl
  refine ⟨⟨fun p hp => ?_, ?_⟩, ?_⟩
  · obtain ⟨r, hr, rfl⟩ := List.mem_map.1 hp
    exact hk _ hps r hr
  · show Controls.mk _ _ _ = Controls.mk _ _ _
    simp [Function.comp_def, timesDictInUnit]
  · show ControlsOut.mk _ _ _ = ControlsOut.mk _ _ _
    simp [Function.comp_def, Pulse.inTimeUnit]

theorem updateBase_unit (hα : 0 < α) {c c' : Controls K} (h : TimeUnitOf α c c') (x : List K) :
    RelPy (TimeUnitOf α) (c.updateBase M x) (c'.updateBase M x) := by
  obtain ⟨h, rfl⟩ := h
  unfold Controls.updateBase
  rw [show (c.inTimeUnit α).times = timesDictInUnit α c.times from rfl, setTimes_unit,
    show (c.inTimeUnit α).pulses = c.pulses.map (Pulse.inTimeUnit α) from rfl, show (c.inTimeUnit α).params = c.params from rfl]
  rcases setTimes x c.times with er | ts
  · rfl
  simp only [bind, Except.bind, Except.map]
  have hf : ∀ p ∈ c.pulses, (do
      let v ← gather x (p.inTimeUnit α).ctrlList
      let t ← dictGet (timesDictInUnit α ts) (p.inTimeUnit α).timeName
      (p.inTimeUnit α).setBasePulse M v t.getTime) = (do
      let v ← gather x p.ctrlList
      let t ← dictGet ts p.timeName
      p.setBasePulse M v t.getTime : Py (Pulse K)).map (Pulse.inTimeUnit α) := by
    intro p hp
    show (gather x p.ctrlList >>= fun v => dictGet (timesDictInUnit α ts) p.timeName >>= _) = _
    rw [dictGet_unit]
    rcases gather x p.ctrlList with er | v
    · rfl
    rcases dictGet ts p.timeName with er | t
    · rfl
    show (p.inTimeUnit α).setBasePulse M v (t.inTimeUnit α).getTime = _
    rw [getTime_unit, setBasePulse_unit M hα p (h p hp)]
    rfl
  have hm := mapM_unit (g := Pulse.inTimeUnit α) (q := Pulse.inTimeUnit α) (f := fun p => do
      let v ← gather x p.ctrlList
      let t ← dictGet ts p.timeName
      p.setBasePulse M v t.getTime) (f' := fun p => do
      let v ← gather x p.ctrlList
      let t ← dictGet (timesDictInUnit α ts) p.timeName
      p.setBasePulse M v t.getTime) hf
  have hk := mapM_keeps (l := c.pulses) (Q := fun r : Pulse K => r.basis.UnitFree α) (f := fun p => do
      let v ← gather x p.ctrlList
      let t ← dictGet ts p.timeName
      p.setBasePulse M v t.getTime) fun p hp b hb => by
    obtain ⟨v, -, hb⟩ := py_bind_ok.1 hb
    obtain ⟨t, -, hb⟩ := py_bind_ok.1 hb
    unfold Pulse.setBasePulse at hb
    obtain ⟨u, -, hb⟩ := py_bind_ok.1 hb
    split at hb
    · cases hb
      exact h p hp
    · obtain ⟨u, -, hb⟩ := py_bind_ok.1 hb
      cases hb
      exact h p hp
  simp only [bind, Except.bind] at hm hk
  rw [hm]
  rcases hps : List.mapM _ c.pulses with er | ps
  · rfl
  simp only [Except.map]
  rcases List.mapM _ c.params with er | prs
  · rfl
  exact ⟨hk _ hps, rfl⟩

theorem scatterPulses_unit (f : Pulse K → List K) (hf : ∀ p, f (Pulse.inTimeUnit α p) = f p) (ps : List (Pulse K)) : ∀ s : List K,
    (ps.map (Pulse.inTimeUnit α)).foldlM (fun s p => scatter s p.ctrlList (f p)) s = ps.foldlM (fun s p => scatter s p.ctrlList (f p)) s := by
  induction ps with
  | nil => intro s; rfl
  | cons p ps ih =>
    intro s
    rw [List.map_cons, List.foldlM_cons, List.foldlM_cons, hf]
    show (scatter s p.ctrlList (f p) >>= _) = _
    rcases scatter s p.ctrlList (f p) with er | s'
    · rfl
    exact ih s'

theorem number_unit (c : Controls K) : (c.inTimeUnit α).number = c.number := by
  unfold Controls.number Controls.inTimeUnit
  dsimp only
  rw [List.map_map]
  rfl

theorem mean_unit (c : Controls K) : (c.inTimeUnit α).mean = c.mean := by
  unfold Controls.mean
  rw [number_unit, show (c.inTimeUnit α).pulses = c.pulses.map (Pulse.inTimeUnit α) from rfl, scatterPulses_unit _ (fun _ => rfl)]
  rfl

theorem sigma_unit (c : Controls K) : (c.inTimeUnit α).sigma = c.sigma := by
  unfold Controls.sigma
  rw [number_unit, show (c.inTimeUnit α).pulses = c.pulses.map (Pulse.inTimeUnit α) from rfl, scatterPulses_unit _ (fun _ => rfl),
    show (c.inTimeUnit α).params = c.params from rfl]
  congr 1
  funext s
  congr 1
  funext s
  show List.foldlM _ s (c.times.map fun t => (t.1, t.2.inTimeUnit α)) = _
  generalize c.times = ts
  induction ts generalizing s with
  | nil => rfl
  | cons t ts ih =>
    rw [List.map_cons, List.foldlM_cons, List.foldlM_cons]
    show ((if t.2.isOptimization then scatter s t.2.alpha.ctrlList [t.2.alpha.amplitudeVariation] else pure s : Py (List K)) >>= _) = _
    generalize (if t.2.isOptimization then scatter s t.2.alpha.ctrlList [t.2.alpha.amplitudeVariation] else pure s : Py (List K)) = R
    rcases R with er | s'
    · rfl
    exact ih s'

theorem reindexPulses_unit (ps : List (Pulse K)) : ∀ mi,
    reindexPulses mi (ps.map (Pulse.inTimeUnit α)) = ((reindexPulses mi ps).1.map (Pulse.inTimeUnit α), (reindexPulses mi ps).2) := by
  induction ps with
  | nil => intro mi; rfl
  | cons p ps ih =>
    intro mi
    show (_ :: (reindexPulses p.lastIndex (ps.map _)).1, (reindexPulses p.lastIndex (ps.map _)).2) = _
    rw [ih]
    rfl

theorem reindex_unit (c : Controls K) : (c.inTimeUnit α).reindex = c.reindex.inTimeUnit α := by
  unfold Controls.reindex
  rw [show (c.inTimeUnit α).pulses = c.pulses.map (Pulse.inTimeUnit α) from rfl, reindexPulses_unit]
  rfl

theorem reindexPulses_basis {P : Basis K → Prop} (ps : List (Pulse K)) (h : ∀ p ∈ ps, P p.basis) : ∀ mi, ∀ p ∈ (reindexPulses mi ps).1, P p.basis := by
  induction ps with
  | nil => intro mi p hp; cases hp
  | cons p ps ih =>
    intro mi q hq
    rcases List.mem_cons.1 hq with rfl | hq
    · exact h p List.mem_cons_self
    · exact ih (fun p hp => h p (List.mem_cons_of_mem _ hp)) _ q hq

theorem selectBasisAt_unit (rnd : ℕ → List K) {c c' : Controls K} (h : TimeUnitOf α c c') (i : ℕ) :
    RelPy (TimeUnitOf α) (c.selectBasisAt rnd i) (c'.selectBasisAt rnd i) := by
  obtain ⟨h, rfl⟩ := h
  unfold Controls.selectBasisAt
  rw [show (c.inTimeUnit α).pulses = c.pulses.map (Pulse.inTimeUnit α) from rfl, List.getElem?_map]
  rcases hp : c.pulses[i]? with _ | p
  · exact ⟨h, rfl⟩
  dsimp only [Option.map_some]
  rw [show (p.inTimeUnit α).basis.isChopped = p.basis.isChopped from isChopped_unit _]
  split
  · rw [drawSuper_unit]
    rcases hd : p.drawSuper (rnd i) with er | p'
    · rfl
    refine ⟨fun q hq => ?_, ?_⟩
    · refine reindexPulses_basis _ (fun q hq => ?_) _ q hq
      rcases List.mem_or_eq_of_mem_set hq with hq | rfl
      · exact h q hq
      · unfold Pulse.drawSuper at hd
        obtain ⟨w, -, hd⟩ := py_bind_ok.1 hd
        cases hd
        exact h p (List.mem_of_getElem? hp)
    · show Controls.reindex _ = _
      rw [← reindex_unit]
      congr 1
      unfold Controls.inTimeUnit
      dsimp only
      rw [List.map_set]
  · exact ⟨h, rfl⟩

theorem selectBasis_unit (rnd : ℕ → List K) {c c' : Controls K} (h : TimeUnitOf α c c') :
    RelPy (TimeUnitOf α) (c.selectBasis rnd) (c'.selectBasis rnd) := by
  unfold Controls.selectBasis
  have hl : c'.pulses.length = c.pulses.length := by rw [h.2]; simp [Controls.inTimeUnit]
  rw [hl]
  generalize List.range c.pulses.length = l
  induction l generalizing c c' with
  | nil => exact h
  | cons i l ih =>
    rw [List.foldlM_cons, List.foldlM_cons]
    exact (selectBasisAt_unit rnd h i).bind fun a b hab => ih hab (by rw [hab.2]; simp [Controls.inTimeUnit])

theorem corresponds_timeUnit (hα : 0 < α) (rnd : ℕ → ℕ → List K) (simplex : ℕ → List K → List K → Py (List (List K))) :
    Corresponds (controlsOps M rnd simplex) (controlsOps M rnd simplex) (TimeUnitOf α) id id (ControlsOut.inTimeUnit α) where
  get c c' x h := getControls_unit M hα h x
  mean c c' h := by
    obtain ⟨-, rfl⟩ := h
    show RelPy _ c.mean (c.inTimeUnit α).mean
    rw [mean_unit]
    rcases c.mean with er | x <;> exact rfl
  sigma c c' h := by
    obtain ⟨-, rfl⟩ := h
    show RelPy _ c.sigma (c.inTimeUnit α).sigma
    rw [sigma_unit]
    rcases c.sigma with er | x <;> exact rfl
  update c c' x h := updateBase_unit M hα h x
  select k c c' h := selectBasis_unit (rnd k) h
  simplex k x sg := by
    show RelPy _ (simplex k x sg) (simplex k x sg)
    rcases simplex k x sg with er | l
    · rfl
    · show l = l.map id
      rw [List.map_id]

theorem corresponds_timeUnit_system (hα : 0 < α) (kind : AlgKind) (sqrt : K → K) (rnd : ℕ → ℕ → List K) {n : ℕ} (draws : ℕ → Vec K n) :
    Corresponds (systemOps kind M sqrt rnd draws) (systemOps kind M sqrt rnd draws) (TimeUnitOf α) id id (ControlsOut.inTimeUnit α) where
  get c c' x h := by
    refine (getControls_unit M hα h (List.ofFn x)).bind fun a b hab => ?_
    obtain ⟨h1, h2⟩ := hab
    rw [show b.2.pulses = a.2.pulses by rw [h2]; rfl]
    split
    · rfl
    · exact ⟨h1, h2⟩
  mean c c' h := by
    obtain ⟨-, rfl⟩ := h
    show RelPy _ (c.mean >>= vecOfList n) ((c.inTimeUnit α).mean >>= vecOfList n)
    rw [mean_unit]
    rcases (c.mean >>= vecOfList n) with er | x <;> exact rfl
  sigma c c' h := by
    obtain ⟨-, rfl⟩ := h
    show RelPy _ (c.sigma >>= vecOfList n) ((c.inTimeUnit α).sigma >>= vecOfList n)
    rw [sigma_unit]
    rcases (c.sigma >>= vecOfList n) with er | x <;> exact rfl
  update c c' x h := updateBase_unit M hα h _
  select k c c' h := selectBasis_unit (rnd k) h
  simplex k x sg := by
    show RelPy _ (simplexCreation sqrt x sg (draws k)) (simplexCreation sqrt x sg (draws k))
    rcases simplexCreation sqrt x sg (draws k) with er | l
    · rfl
    · show l = l.map id
      rw [List.map_id]

end

section
variable {K V F : Type} {β : Type} [LE K] [DecidableLE K]

/-- every search follows itself -/
theorem SimMap.refl_id {S : Py K → Py K → Prop} (hS : ∀ m, S m m) {Q : β → β → Prop} (hQ : ∀ a, Q a a) (st : Strat K V F β) :
    SimMap id id S Q st st := by
  induction st with
  | ret a => exact .ret a a (hQ a)
  | op o k ih =>
    cases o with
    | checkNM m fs n =>
      have := SimMap.size (T := id) (φ := id) m m fs n k k (hS m) ih
      rwa [List.map_id] at this
    | checkCMA fs n =>
      have h : SimMap id id S Q (.op (.checkCMA fs n) k) (.op (.checkCMA (fs.map id) n) k) :=
        SimMap.op (T := id) (φ := id) (S := S) (Q := Q) (.checkCMA fs n) k k ih
      rwa [List.map_id] at h
    | eval x it => exact .op _ _ _ ih
    | drift x it v => exact .op _ _ _ ih
    | readConv => exact .op _ _ _ ih
    | setConv b => exact .op _ _ _ ih
    | callback => exact .op _ _ _ ih
    | userStop => exact .op _ _ _ ih
    | now => exact .op _ _ _ ih
    | reason => exact .op _ _ _ ih
    | fail e => exact .op _ _ _ ih

theorem dsmSim_refl (cfg : AlgCfg K F) (dsm : Dsm K V F) : DsmSim cfg cfg.sc.xatol id id dsm dsm := by
  intro i x sim sg
  rw [List.map_id]
  refine SimMap.refl_id (S := SameSize cfg.sc.xatol cfg.sc.xatol) (Q := fun r r' : DsmResult V F => r'.reason = r.reason) (fun m => ?_) (fun _ => rfl) _
  rcases m with e | m
  · rfl
  · exact Iff.rfl

end
end QuOCS

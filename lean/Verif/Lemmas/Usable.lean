/-
A controls object built from a usable dictionary never raises.
-/
import Verif.Spec.Usable
import Verif.Lemmas.Times
import Verif.Lemmas.ControlsRepro
import Verif.Props.BasisCounts

set_option linter.unusedSectionVars false
set_option linter.unusedVariables false

namespace QuOCS

section
variable {K : Type*} [Field K] [LinearOrder K] [IsStrictOrderedRing K]

theorem mapM_exists {α : Type*} {β : Type*} {f : α → Py β} {l : List α} (h : ∀ a ∈ l, ∃ b, f a = .ok b) :
    ∃ r, l.mapM f = .ok r := by
  induction l with
  | nil => exact ⟨[], rfl⟩
  | cons a l ih =>
    obtain ⟨b, hb⟩ := h a (by simp)
    obtain ⟨r, hr⟩ := ih fun x hx => h x (by simp [hx])
    exact ⟨b :: r, by rw [List.mapM_cons, hb, hr]; rfl⟩

theorem foldlM_exists {α β : Type*} {f : β → α → Py β} {I : β → Prop} {l : List α}
    (h : ∀ a ∈ l, ∀ b, I b → ∃ c, f b a = .ok c ∧ I c) {b : β} (hb : I b) : ∃ r, l.foldlM f b = .ok r ∧ I r := by
  induction l generalizing b with
  | nil => exact ⟨b, rfl, hb⟩
  | cons a l ih =>
    obtain ⟨c, h1, h2⟩ := h a (by simp) b hb
    obtain ⟨r, h3, h4⟩ := ih (fun x hx => h x (by simp [hx])) h2
    exact ⟨r, by rw [List.foldlM_cons, h1]; exact h3, h4⟩

theorem bop_fits {f : K → K → K} {a b : List K} {n : ℕ} (ha : a.length = n ∨ a.length = 1) (hb : b.length = n)
    (hn : 1 ≤ n) : ∃ r, bop f a b = .ok r ∧ r.length = n := by
  by_cases h : a.length = b.length
  · exact ⟨_, bop_eq h, by rw [List.length_zipWith, h, Nat.min_self, hb]⟩
  · have h1 : a.length = 1 := by rcases ha with h' | h' <;> omega
    obtain ⟨x, rfl⟩ := List.length_eq_one_iff.1 h1
    refine ⟨b.map (f x), ?_, by rw [List.length_map, hb]⟩
    unfold bop
    rw [if_neg h, if_pos h1]

theorem bop_fits' {f : K → K → K} {a b : List K} {n : ℕ} (ha : a.length = n) (hb : b.length = n ∨ b.length = 1)
    (hn : 1 ≤ n) : ∃ r, bop f a b = .ok r ∧ r.length = n := by
  by_cases h : a.length = b.length
  · exact ⟨_, bop_eq h, by rw [List.length_zipWith, ← h, Nat.min_self, ha]⟩
  · have h1 : b.length = 1 := by rcases hb with h' | h' <;> omega
    obtain ⟨y, rfl⟩ := List.length_eq_one_iff.1 h1
    refine ⟨a.map (fun x => f x y), ?_, by rw [List.length_map, ha]⟩
    unfold bop
    have h2 : ¬ a.length = 1 := fun h2 => h (by rw [h2]; rfl)
    rw [if_neg h, if_neg h2, if_pos h1]

theorem limited_exists {p : Pulse K} {u : List K} (hlu : p.lower ≤ p.upper) (hu : 1 ≤ u.length) :
    ∃ v, p.limited u = .ok v ∧ v.length = u.length := by
  have : ∃ v, p.limited u = .ok v := by
    unfold Pulse.limited
    split
    · exact shrinkPulse_exists (List.ne_nil_of_length_pos hu)
    · exact ⟨_, rfl⟩
  obtain ⟨v, hv⟩ := this
  exact ⟨v, hv, limited_length hv hlu⟩

variable {M : MathFns K} {td : List (TimeDict K)} {d : PulseDict K} {p : Pulse K}

theorem PulseReach.ordered (h : PulseReach M d p) : p.lower ≤ p.upper := by
  obtain ⟨h1, h2, _⟩ := h.fields
  rw [h1, h2]
  exact le_trans (min_le_left _ _) (le_max_left _ _)

theorem guess_exists (h : PulseReach M d p) (hu : UsablePulse td d) (hg : p.timeGrid.length = d.binsNumber) :
    ∃ g, p.initialGuess = .ok g ∧ (g.length = d.binsNumber ∨ g.length = 1) := by
  obtain ⟨_, _, _, _, _, _, h7, _, _⟩ := h.fields
  have hb := hu.bins
  have key : ∀ l : List K, Fits d.binsNumber l → ∃ g, p.limited l = .ok g ∧ (g.length = d.binsNumber ∨ g.length = 1) := by
    intro l hl
    obtain ⟨v, h1, h2⟩ := limited_exists (u := l) h.ordered (by rcases hl with h' | h' <;> omega)
    exact ⟨v, h1, by rw [h2]; exact hl⟩
  have hgu := hu.guess
  unfold Pulse.initialGuess
  rw [h7]
  rcases hgs : d.guess with f | l
  · rw [hgs] at hgu
    exact key _ (hgu _ hg)
  · rw [hgs] at hgu
    exact key _ hgu

/-- The update pulse of a usable pulse object always exists, given the declared number of coefficients. -/
theorem shaped_exists (h : PulseReach M d p) (hu : UsablePulse td d) {x : List K} (hx : x.length = p.nParams) (T : K) :
    ∃ u, (p.setInputs x T).shaped M = .ok u ∧ u.length = d.binsNumber := by
  obtain ⟨_, _, _, _, hbins, _, _, _, hbas⟩ := h.fields
  have hg : (p.setInputs x T).timeGrid.length = d.binsNumber := by simp [Pulse.setInputs, linspace0, hbins]
  have hbu := hu.basis
  have main : BuiltinBasis d.basis → PositiveBasis d.basis →
      ∃ u, (p.setInputs x T).shaped M = .ok u ∧ u.length = d.binsNumber := by
    intro hb hp
    obtain ⟨q, u, h1, h2⟩ := C42_declared_number_suffices h hb hp hx T
    unfold Pulse.getBarePulse at h1
    obtain ⟨v, h3, h1⟩ := py_bind_ok.1 h1
    rw [py_pure_ok] at h1
    obtain ⟨_, rfl⟩ := Prod.mk.inj h1
    exact ⟨v, h3, h2⟩
  match hbd : d.basis with
  | .fourier n => exact main (by rw [hbd]; trivial) (by rw [hbd]; trivial)
  | .chebyshev n => exact main (by rw [hbd]; trivial) (by rw [hbd]; trivial)
  | .sinc n bm => exact main (by rw [hbd]; trivial) (by rw [hbd]; trivial)
  | .piecewise => exact main (by rw [hbd]; trivial) (by rw [hbd]; trivial)
  | .sigmoid n o sg => exact main (by rw [hbd]; trivial) (by rw [hbd]; trivial)
  | .sigmoidTimeDep n o sg tv => rw [hbd] at hbu; exact main (by rw [hbd]; trivial) (by rw [hbd]; exact hbu)
  | .sigmoidSigmas n o sg sv => exact main (by rw [hbd]; trivial) (by rw [hbd]; trivial)
  | .sigmoidAllParas n o sg tv sv => rw [hbd] at hbu; exact main (by rw [hbd]; trivial) (by rw [hbd]; exact hbu)
  | .walsh n =>
    obtain ⟨hw, hn, _⟩ := h.w_length
    rw [hbd] at hw hn
    rw [hn] at hx
    have hw : p.w.length = n := hw
    have hgl : (linspace0 T p.binsNumber).length = p.binsNumber := by simp [linspace0]
    have h1 := fourier_closed M (T := T) hw (by rw [hx]; rfl) hgl
    obtain ⟨g, h2, h3⟩ := guess_exists (h.inputs x T) hu hg
    have hl : (List.map (fourierVal M n p.w x T) (linspace0 T p.binsNumber)).length = d.binsNumber := by
      rw [List.length_map, hgl, hbins]
    obtain ⟨o, h4, h5⟩ := bop_fits (f := (· + ·)) h3 hl hu.bins
    obtain ⟨o', h6, h7⟩ := limited_exists (p := p.setInputs x T) (u := o) (h.inputs x T).ordered (by rw [h5]; exact hu.bins)
    obtain ⟨r, h8, h9⟩ := bop_fits' (f := (· - ·)) (h7.trans h5) h3 hu.bins
    refine ⟨r, ?_, h9⟩
    have hbs : (p.setInputs x T).basis = .walsh n := hbas.trans hbd
    unfold Pulse.shaped
    rw [hbs]
    simp only [Pulse.addInitialGuess]
    have h1' : sumTerms (zeros (p.setInputs x T).binsNumber) n (fourierTerm M (p.setInputs x T).w
      (p.setInputs x T).params (p.setInputs x T).timeGrid (p.setInputs x T).finalTime) = .ok _ := h1
    rw [h1']
    simp only [bind, Except.bind, h2, h4, h6, h8]
  | .custom n m f =>
    rw [hbd] at hbu
    obtain ⟨u, h1, h2⟩ := hbu p.w x (linspace0 T p.binsNumber) T
    refine ⟨u, ?_, h2⟩
    have hbs : (p.setInputs x T).basis = .custom n m f := hbas.trans hbd
    unfold Pulse.shaped
    rw [hbs]
    exact h1

/-- One shaping step of a usable pulse. -/
theorem applyStep_exists (h : PulseReach M d p) (hu : UsablePulse td d) (hb : p.basePulse.length = p.binsNumber)
    {x : List K} (hx : x.length = p.nParams) (T : K) (s : Shaping) {u : List K} (hl : u.length = d.binsNumber) :
    ∃ v, (p.setInputs x T).applyStep M u s = .ok v ∧ v.length = d.binsNumber := by
  obtain ⟨_, _, _, _, hbins, hsc, _, _, hbas⟩ := h.fields
  have hg : (p.setInputs x T).timeGrid.length = d.binsNumber := by simp [Pulse.setInputs, linspace0, hbins]
  have h' := h.inputs x T
  cases s with
  | addInitialGuess =>
    obtain ⟨g, h2, h3⟩ := guess_exists h' hu hg
    obtain ⟨r, h4, h5⟩ := bop_fits (f := (· + ·)) h3 hl hu.bins
    exact ⟨r, by simp only [Pulse.applyStep, Pulse.addInitialGuess, bind, Except.bind, h2, h4], h5⟩
  | addBasePulse =>
    exact bop_fits (f := (· + ·)) (.inl hl) (b := p.basePulse) (by rw [hb, hbins]) hu.bins
  | addNewUpdatePulse =>
    obtain ⟨w, h1, h2⟩ := shaped_exists h hu hx T
    obtain ⟨r, h4, h5⟩ := bop_fits (f := (· + ·)) (.inl hl) h2 hu.bins
    exact ⟨r, by simp only [Pulse.applyStep, bind, Except.bind, h1, h4], h5⟩
  | scalePulse =>
    have hs := hu.scaling
    have e : (p.setInputs x T).scaling = d.scaling := hsc
    unfold Pulse.applyStep Pulse.scale
    dsimp only
    rw [e]
    rcases hsd : d.scaling with f | f | l
    · rw [hsd] at hs
      exact bop_fits (hs _ hg) hl hu.bins
    · rw [hsd] at hs
      exact ⟨_, rfl, hs _ _ hg hl⟩
    · rw [hsd] at hs
      exact bop_fits hs hl hu.bins
  | limitPulse =>
    obtain ⟨v, h1, h2⟩ := limited_exists (u := u) h'.ordered (by rw [hl]; exact hu.bins)
    exact ⟨v, h1, h2.trans hl⟩

theorem getPulse_exists (h : PulseReach M d p) (hu : UsablePulse td d) (hb : p.basePulse.length = p.binsNumber)
    {x : List K} (hx : x.length = p.nParams) (T : K) :
    ∃ q u, p.getPulse M x T = .ok (q, u) ∧ q.basePulse.length = q.binsNumber := by
  have hbins := h.fields.2.2.2.2.1
  obtain ⟨u, h1, _⟩ := foldlM_exists (f := fun u s => (p.setInputs x T).applyStep M u s)
    (I := fun u => u.length = d.binsNumber) (l := p.shaping)
    (fun s _ u hl => applyStep_exists h hu hb hx T s hl) (b := zeros p.binsNumber) (by simp [zeros, hbins])
  refine ⟨p.setInputs x T, u, ?_, hb⟩
  unfold Pulse.getPulse Pulse.build
  have h1' : List.foldlM (fun u s => (p.setInputs x T).applyStep M u s) (zeros (p.setInputs x T).binsNumber)
    (p.setInputs x T).shaping = .ok u := h1
  simp only [h1', bind, Except.bind]
  rfl

theorem setBase_exists (h : PulseReach M d p) (hu : UsablePulse td d) (hb : p.basePulse.length = p.binsNumber)
    {x : List K} (hx : x.length = p.nParams) (T : K) :
    ∃ q, p.setBasePulse M x T = .ok q ∧ q.basePulse.length = q.binsNumber := by
  have hbins := h.fields.2.2.2.2.1
  obtain ⟨s, h1, h2⟩ := shaped_exists h hu hx T
  unfold Pulse.setBasePulse
  simp only [bind, Except.bind, h1]
  split
  · exact ⟨_, rfl, h2.trans hbins.symm⟩
  · have e : (p.setInputs x T).basePulse.length = s.length := by rw [h2, ← hbins]; exact hb
    rw [iadd_eq e]
    refine ⟨_, rfl, ?_⟩
    show (List.zipWith _ _ _).length = p.binsNumber
    rw [List.length_zipWith, e, Nat.min_self, h2, hbins]

theorem drawSuper_exists (h : PulseReach M d p) (hb : p.basePulse.length = p.binsNumber) {rnd : List K}
    (hr : basisSuper d.basis ≤ rnd.length) :
    ∃ q, p.drawSuper rnd = .ok q ∧ q.basePulse.length = q.binsNumber := by
  have hbas := h.fields.2.2.2.2.2.2.2.2
  unfold Pulse.drawSuper uniformDraw
  rw [hbas]
  obtain ⟨w, hw⟩ := mapM_exists (l := List.range (basisSuper d.basis)) (f := fun (i : ℕ) => (do
    let r ← getIdx rnd i
    let kBins := (p.wUpper - p.wLower) / (basisSuper d.basis : K)
    pure (p.wLower + (i : K) * kBins + kBins * r) : Py K)) (by
      intro i hi
      rw [getIdx_of_lt (lt_of_lt_of_le (List.mem_range.1 hi) hr)]
      exact ⟨_, rfl⟩)
  simp only [bind, Except.bind] at hw ⊢
  rw [hw]
  exact ⟨_, rfl, hb⟩

end

section
variable {K : Type} [Field K] [LinearOrder K] [IsStrictOrderedRing K]
variable {M : MathFns K} {pd : List (PulseDict K)} {td : List (TimeDict K)} {rd : List (ParamDict K)} {c : Controls K}

/-- The state of a controls object built from a usable dictionary. -/
structure Ready (M : MathFns K) (pd : List (PulseDict K)) (td : List (TimeDict K)) (rd : List (ParamDict K))
    (c : Controls K) : Prop where
  reach : ControlsReach M pd td rd c
  base : ∀ p ∈ c.pulses, p.basePulse.length = p.binsNumber
  names : ∀ t ∈ td, t.name ∈ c.times.map Prod.fst
  alpha : ∀ t ∈ c.times, t.2.alpha.ctrlList = [0]

theorem mkPulses_exists (mi : ℤ) {ds : List (PulseDict K)} (h : ∀ d ∈ ds, UsablePulse td d) :
    ∃ ps k, mkPulses M mi ds = .ok (ps, k) ∧ ∀ p ∈ ps, p.basePulse.length = p.binsNumber := by
  induction ds generalizing mi with
  | nil => exact ⟨[], mi, rfl, by simp⟩
  | cons d ds ih =>
    have h1 := (h d (by simp)).coefficients
    have e : ∃ p, mkPulse M mi d = .ok p ∧ p.basePulse.length = p.binsNumber := by
      unfold mkPulse
      dsimp only
      rw [if_neg (by unfold PulseDict.declared at h1; omega)]
      exact ⟨_, rfl, by simp [zeros]⟩
    obtain ⟨p, h2, h3⟩ := e
    obtain ⟨ps, k, h4, h5⟩ := ih p.lastIndex fun x hx => h x (by simp [hx])
    refine ⟨p :: ps, k, ?_, ?_⟩
    · unfold mkPulses
      simp only [h2, h4, bind, Except.bind]
      rfl
    · intro q hq
      rcases List.mem_cons.1 hq with rfl | hq
      · exact h3
      · exact h5 q hq

theorem dictSet_names {α β : Type*} [DecidableEq α] (l : List (α × β)) (k : α) (v : β) :
    k ∈ (dictSet l k v).map Prod.fst ∧ ∀ n ∈ l.map Prod.fst, n ∈ (dictSet l k v).map Prod.fst := by
  induction l with
  | nil => simp [dictSet]
  | cons a l ih =>
    obtain ⟨k', v'⟩ := a
    unfold dictSet
    split
    · rename_i h
      subst h
      simp
    · obtain ⟨h1, h2⟩ := ih
      refine ⟨by simp only [List.map_cons, List.mem_cons]; exact .inr h1, fun n hn => ?_⟩
      simp only [List.map_cons, List.mem_cons] at hn ⊢
      rcases hn with h | h
      · exact .inl h
      · exact .inr (h2 n h)

theorem dictSet_all {α β : Type*} [DecidableEq α] {P : β → Prop} {l : List (α × β)} {k : α} {v : β}
    (h : ∀ t ∈ l, P t.2) (hv : P v) : ∀ t ∈ dictSet l k v, P t.2 := by
  induction l with
  | nil => simpa [dictSet] using hv
  | cons a l ih =>
    obtain ⟨k', v'⟩ := a
    unfold dictSet
    split
    · intro t ht
      rcases List.mem_cons.1 ht with rfl | ht
      · exact hv
      · exact h t (by simp [ht])
    · intro t ht
      rcases List.mem_cons.1 ht with rfl | ht
      · exact h (k', v') (by simp)
      · exact ih (fun t ht => h t (by simp [ht])) t ht

theorem mkTimes_exists {ts : List (TimeDict K)} (h : ∀ t ∈ ts, t.isOptimization = true → t.upper ≠ t.lower)
    {acc : List (String × TimeObj K)} (ha : ∀ t ∈ acc, t.2.alpha.ctrlList = [0]) :
    ∃ r, mkTimes ts acc = .ok r ∧ (∀ t ∈ ts, t.name ∈ r.map Prod.fst) ∧ (∀ n ∈ acc.map Prod.fst, n ∈ r.map Prod.fst) ∧
      ∀ t ∈ r, t.2.alpha.ctrlList = [0] := by
  induction ts generalizing acc with
  | nil => exact ⟨acc, rfl, by simp, fun _ h => h, ha⟩
  | cons d ds ih =>
    have e : ∃ t, mkTime d = .ok t ∧ t.alpha.ctrlList = [0] := by
      unfold mkTime
      rw [if_neg]
      · refine ⟨_, rfl, ?_⟩
        simp [mkParam, ctrlIndices]
      · simp only [Bool.and_eq_true, decide_eq_true_eq, not_and]
        exact fun ho => sub_ne_zero.2 (h d (by simp) ho)
    obtain ⟨t, h1, h2⟩ := e
    obtain ⟨r, h3, h4, h5, h6⟩ := ih (fun x hx => h x (by simp [hx])) (acc := dictSet acc d.name t)
      (dictSet_all (P := fun t : TimeObj K => t.alpha.ctrlList = [0]) ha h2)
    obtain ⟨n1, n2⟩ := dictSet_names acc d.name t
    refine ⟨r, ?_, ?_, fun n hn => h5 n (n2 n hn), h6⟩
    · unfold mkTimes
      simp only [h1, bind, Except.bind]
      exact h3
    · intro x hx
      rcases List.mem_cons.1 hx with rfl | hx
      · exact h5 _ n1
      · exact h4 x hx

/-- Creation never raises. -/
theorem mkControls_exists (hu : Usable pd td rd) : ∃ c, mkControls M pd td rd = .ok c ∧ Ready M pd td rd c := by
  obtain ⟨ps, k, h1, h2⟩ := mkPulses_exists (M := M) (-1) hu.pulses
  obtain ⟨ts, h3, h4, _, h5⟩ := mkTimes_exists hu.times (acc := []) (by simp)
  have e : mkControls M pd td rd = .ok { pulses := ps, params := mkParams k rd, times := ts } := by
    unfold mkControls
    simp only [h1, h3, bind, Except.bind]
    rfl
  exact ⟨_, e, .create e, h2, h4, h5⟩

theorem gather_exists {a : List K} {idx : List ℕ} (h : ∀ i ∈ idx, i < a.length) :
    ∃ v, gather a idx = .ok v ∧ v.length = idx.length := by
  obtain ⟨v, hv⟩ := mapM_exists (f := fun i => getIdx a i) (l := idx) fun i hi => ⟨_, getIdx_of_lt (h i hi)⟩
  exact ⟨v, hv, ((mapM_ok.1 hv).length_eq).symm⟩

theorem scatter_exists {a vals : List K} {idx : List ℕ} (h : ∀ i ∈ idx, i < a.length)
    (hv : vals.length = idx.length ∨ vals.length = 1) : ∃ r, scatter a idx vals = .ok r ∧ r.length = a.length := by
  unfold scatter
  rw [if_neg (by rintro ⟨h1, h2⟩; rcases hv with h | h <;> contradiction), if_pos (by simpa using h)]
  refine ⟨_, rfl, ?_⟩
  generalize idx.zip _ = l
  clear h hv
  induction l generalizing a with
  | nil => rfl
  | cons x l ih => rw [List.foldl_cons, ih]; simp

theorem QChain_lt {k : ℕ} {ps : List (Param K)} (h : QChain k ps) :
    ∀ p ∈ ps, (∀ i ∈ p.ctrlList, i < k + ps.length) ∧ p.ctrlList.length = 1 := by
  induction ps generalizing k with
  | nil => simp
  | cons q ps ih =>
    obtain ⟨h1, h2⟩ := h
    intro p hp
    rcases List.mem_cons.1 hp with rfl | hp
    · rw [h1]
      refine ⟨fun i hi => ?_, by simp⟩
      simp at hi
      simp; omega
    · obtain ⟨h3, h4⟩ := ih h2.2 p hp
      refine ⟨fun i hi => ?_, h4⟩
      have := h3 i hi
      simp; omega

theorem CInv.number (h : CInv M pd td rd c) : c.number = searchDim pd rd := by
  unfold Controls.number searchDim
  rw [h.declared]
  simp [h.params.length_eq]

theorem CInv.pulse_slots (h : CInv M pd td rd c) {p : Pulse K} (hp : p ∈ c.pulses) :
    (∀ i ∈ p.ctrlList, i < searchDim pd rd) ∧ p.ctrlList.length = p.nParams := by
  obtain ⟨h1, h2⟩ := PChain_lt h.pchain p hp
  refine ⟨fun i hi => ?_, h2⟩
  have := h1 i hi
  rw [h.declared] at this
  unfold searchDim
  omega

theorem CInv.param_slots (h : CInv M pd td rd c) {p : Param K} (hp : p ∈ c.params) :
    (∀ i ∈ p.ctrlList, i < searchDim pd rd) ∧ p.ctrlList.length = 1 := by
  obtain ⟨h1, h2⟩ := QChain_lt h.qchain p hp
  refine ⟨fun i hi => ?_, h2⟩
  have := h1 i hi
  rw [h.declared, ← h.params.length_eq] at this
  exact this

theorem Usable.dim_pos (hu : Usable pd td rd) : 0 < searchDim pd rd := by
  unfold searchDim
  rcases hu.nonempty with h | h
  · obtain ⟨d, ds, rfl⟩ := List.exists_cons_of_ne_nil h
    have := (hu.pulses d (by simp)).coefficients
    simp only [List.map_cons, List.sum_cons]; omega
  · have := List.length_pos_of_ne_nil h
    omega

theorem Ready.mean (h : Ready M pd td rd c) : ∃ v, c.mean = .ok v ∧ v.length = searchDim pd rd := by
  refine ⟨_, C21_start_point h.reach, ?_⟩
  have := (CInv.of_reach h.reach).params.length_eq
  simp [searchDim, zeros, this]

theorem Ready.sigma (hu : Usable pd td rd) (h : Ready M pd td rd c) : ∃ v, c.sigma = .ok v ∧ v.length = searchDim pd rd := by
  have hi := CInv.of_reach h.reach
  unfold Controls.sigma
  obtain ⟨s1, e1, l1⟩ := foldlM_exists (f := fun (s : List K) (p : Pulse K) => scatter s p.ctrlList p.scaleCoeffs)
    (I := fun s => s.length = searchDim pd rd) (l := c.pulses) (b := zeros c.number) (by
      intro p hp s hs
      obtain ⟨d, _, hd⟩ := forall2_right_mem hi.reach hp
      obtain ⟨h1, h2⟩ := hi.pulse_slots hp
      obtain ⟨r, h3, h4⟩ := scatter_exists (a := s) (vals := p.scaleCoeffs) (idx := p.ctrlList) (by rw [hs]; exact h1) (.inl (by
        rw [h2, hd.coeffs.1]
        unfold basisScale
        cases d.basis <;> simp))
      exact ⟨r, h3, h4.trans hs⟩) (by rw [hi.number]; simp [zeros])
  obtain ⟨s2, e2, l2⟩ := foldlM_exists (f := fun (s : List K) (p : Param K) => scatter s p.ctrlList [p.amplitudeVariation])
    (I := fun s => s.length = searchDim pd rd) (l := c.params) (b := s1) (by
      intro p hp s hs
      obtain ⟨h1, h2⟩ := hi.param_slots hp
      obtain ⟨r, h3, h4⟩ := scatter_exists (a := s) (vals := [p.amplitudeVariation]) (idx := p.ctrlList)
        (by rw [hs]; exact h1) (.inr rfl)
      exact ⟨r, h3, h4.trans hs⟩) l1
  obtain ⟨s3, e3, l3⟩ := foldlM_exists (f := fun (s : List K) (t : String × TimeObj K) =>
      (if t.2.isOptimization then scatter s t.2.alpha.ctrlList [t.2.alpha.amplitudeVariation] else pure s : Py (List K)))
    (I := fun s => s.length = searchDim pd rd) (l := c.times) (b := s2) (by
      intro t ht s hs
      split
      · obtain ⟨r, h3, h4⟩ := scatter_exists (a := s) (vals := [t.2.alpha.amplitudeVariation]) (idx := t.2.alpha.ctrlList)
          (by rw [h.alpha t ht, hs]; simpa using hu.dim_pos) (.inr rfl)
        exact ⟨r, h3, h4.trans hs⟩
      · exact ⟨s, rfl, hs⟩) l2
  refine ⟨s3, ?_, l3⟩
  simp only [e1, e2, bind, Except.bind]
  exact e3

theorem setTimes_exists (hu : Usable pd td rd) (h : Ready M pd td rd c) {x : List K} (hx : x.length = searchDim pd rd) :
    ∃ ts, setTimes x c.times = .ok ts ∧ (∀ t ∈ td, t.name ∈ ts.map Prod.fst) ∧ ∀ t ∈ ts, t.2.alpha.ctrlList = [0] := by
  have : ∃ ts, setTimes x c.times = .ok ts := by
    unfold setTimes
    refine mapM_exists fun t ht => ?_
    split
    · obtain ⟨v, h1, h2⟩ := gather_exists (a := x) (idx := t.2.alpha.ctrlList)
        (by rw [h.alpha t ht, hx]; simpa using hu.dim_pos)
      have hv : 0 < v.length := by rw [h2, h.alpha t ht]; simp
      simp only [h1, bind, Except.bind, Param.setParameter, getIdx_of_lt hv]
      exact ⟨_, rfl⟩
    · exact ⟨t, rfl⟩
  obtain ⟨ts, hts⟩ := this
  refine ⟨ts, hts, ?_, ?_⟩
  · intro t ht
    have hm : ts.map Prod.fst = c.times.map Prod.fst := forall2_map_eq (setTimes_keeps hts) fun a b hab => hab.1
    rw [hm]; exact h.names t ht
  · have hf : List.Forall₂ (fun a b : String × TimeObj K => a.2.alpha.ctrlList = [0] → b.2.alpha.ctrlList = [0]) c.times ts := by
      unfold setTimes at hts
      refine List.Forall₂.imp ?_ (mapM_ok.1 hts)
      intro a b hab ha
      split at hab
      · obtain ⟨v, _, hab⟩ := py_bind_ok.1 hab
        obtain ⟨w, hw, hab⟩ := py_bind_ok.1 hab
        rw [py_pure_ok] at hab
        subst hab
        unfold Param.setParameter at hw
        obtain ⟨z, _, hw⟩ := py_bind_ok.1 hw
        rw [py_pure_ok] at hw
        subst hw
        exact ha
      · rw [py_pure_ok] at hab
        subst hab; exact ha
    intro t ht
    obtain ⟨a, ha, hr⟩ := forall2_right_mem hf ht
    exact hr (h.alpha a ha)

theorem dictGet_exists {β : Type*} {l : List (String × β)} {k : String} (h : k ∈ l.map Prod.fst) :
    ∃ v, dictGet l k = .ok v := by
  unfold dictGet
  induction l with
  | nil => simp at h
  | cons a l ih =>
    obtain ⟨k', v⟩ := a
    rw [List.lookup_cons]
    by_cases e : k = k'
    · subst e
      exact ⟨v, by simp⟩
    · have e' : (k == k') = false := by simpa using e
      rw [e']
      refine ih ?_
      simp only [List.map_cons, List.mem_cons] at h
      exact h.resolve_left e

theorem pulse_time (hu : Usable pd td rd) (h : Ready M pd td rd c) {ts : List (String × TimeObj K)}
    (hn : ∀ t ∈ td, t.name ∈ ts.map Prod.fst) {p : Pulse K} (hp : p ∈ c.pulses) :
    ∃ t, dictGet ts p.timeName = .ok t := by
  obtain ⟨d, hd, hr⟩ := forall2_right_mem (CInv.of_reach h.reach).reach hp
  obtain ⟨t, ht, e⟩ := (hu.pulses d hd).time
  refine dictGet_exists ?_
  rw [hr.timeName_eq, ← e]
  exact hn t ht

/-- Building the controls never raises. -/
theorem Ready.get (hu : Usable pd td rd) (h : Ready M pd td rd c) {x : List K} (hx : x.length = searchDim pd rd) :
    ∃ c' o, c.getControls M x = .ok (c', o) ∧ Ready M pd td rd c' := by
  have hi := CInv.of_reach h.reach
  obtain ⟨ts, e1, n1, a1⟩ := setTimes_exists hu h hx
  have hps : ∀ p ∈ c.pulses, ∃ b : Pulse K × List K, (do
      let v ← gather x p.ctrlList
      let t ← dictGet ts p.timeName
      p.getPulse M v t.getTime : Py (Pulse K × List K)) = .ok b ∧ b.1.basePulse.length = b.1.binsNumber := by
    intro p hp
    obtain ⟨d, hd, hr⟩ := forall2_right_mem hi.reach hp
    obtain ⟨h1, h2⟩ := hi.pulse_slots hp
    obtain ⟨v, h3, h4⟩ := gather_exists (a := x) (idx := p.ctrlList) (by rw [hx]; exact h1)
    obtain ⟨t, h5⟩ := pulse_time hu h n1 hp
    obtain ⟨q, u, h6, h7⟩ := getPulse_exists hr (hu.pulses d hd) (h.base p hp) (h4.trans h2) t.getTime
    exact ⟨(q, u), by simp only [h3, h5, h6, bind, Except.bind], h7⟩
  obtain ⟨ps, e2⟩ := mapM_exists fun p hp => (hps p hp).imp fun _ h => h.1
  obtain ⟨prs, e3⟩ := mapM_exists (l := c.params) (f := fun p => (do
      let v ← gather x p.ctrlList
      p.getParameter v : Py (Param K × K))) (by
    intro p hp
    obtain ⟨h1, h2⟩ := hi.param_slots hp
    obtain ⟨v, h3, h4⟩ := gather_exists (a := x) (idx := p.ctrlList) (by rw [hx]; exact h1)
    have hv : 0 < v.length := by omega
    simp only [h3, bind, Except.bind, Param.getParameter, Param.setParameter, getIdx_of_lt hv]
    exact ⟨_, rfl⟩)
  have e : c.getControls M x = .ok ({ pulses := ps.map (·.1), params := prs.map (·.1), times := ts },
        { pulses := ps.map (·.2), timegrids := ps.map (·.1.timeGrid), parameters := prs.map (·.2) }) := by
    unfold Controls.getControls
    rw [e1]
    simp only [bind, Except.bind] at e2 e3 ⊢
    rw [e2, e3]
    rfl
  refine ⟨_, _, e, .get h.reach e, ?_, n1, a1⟩
  intro q hq
  obtain ⟨b, hb, rfl⟩ := List.mem_map.1 hq
  obtain ⟨p, hp, hpb⟩ := forall2_right_mem (mapM_ok.1 e2) hb
  obtain ⟨b', h1, h2⟩ := hps p hp
  rw [h1] at hpb
  cases hpb
  exact h2

/-- Accepting the best vector never raises. -/
theorem Ready.update (hu : Usable pd td rd) (h : Ready M pd td rd c) {x : List K} (hx : x.length = searchDim pd rd) :
    ∃ c', c.updateBase M x = .ok c' ∧ Ready M pd td rd c' := by
  have hi := CInv.of_reach h.reach
  obtain ⟨ts, e1, n1, a1⟩ := setTimes_exists hu h hx
  have hps : ∀ p ∈ c.pulses, ∃ b : Pulse K, (do
      let v ← gather x p.ctrlList
      let t ← dictGet ts p.timeName
      p.setBasePulse M v t.getTime : Py (Pulse K)) = .ok b ∧ b.basePulse.length = b.binsNumber := by
    intro p hp
    obtain ⟨d, hd, hr⟩ := forall2_right_mem hi.reach hp
    obtain ⟨h1, h2⟩ := hi.pulse_slots hp
    obtain ⟨v, h3, h4⟩ := gather_exists (a := x) (idx := p.ctrlList) (by rw [hx]; exact h1)
    obtain ⟨t, h5⟩ := pulse_time hu h n1 hp
    obtain ⟨q, h6, h7⟩ := setBase_exists hr (hu.pulses d hd) (h.base p hp) (h4.trans h2) t.getTime
    exact ⟨q, by simp only [h3, h5, h6, bind, Except.bind], h7⟩
  obtain ⟨ps, e2⟩ := mapM_exists fun p hp => (hps p hp).imp fun _ h => h.1
  obtain ⟨prs, e3⟩ := mapM_exists (l := c.params) (f := fun p => (do
      let v ← gather x p.ctrlList
      p.setParameter v : Py (Param K))) (by
    intro p hp
    obtain ⟨h1, h2⟩ := hi.param_slots hp
    obtain ⟨v, h3, h4⟩ := gather_exists (a := x) (idx := p.ctrlList) (by rw [hx]; exact h1)
    have hv : 0 < v.length := by omega
    simp only [h3, bind, Except.bind, Param.setParameter, getIdx_of_lt hv]
    exact ⟨_, rfl⟩)
  have e : c.updateBase M x = .ok { pulses := ps, params := prs, times := ts } := by
    unfold Controls.updateBase
    rw [e1]
    simp only [bind, Except.bind] at e2 e3 ⊢
    rw [e2, e3]
    rfl
  refine ⟨_, e, .base h.reach e, ?_, n1, a1⟩
  intro q hq
  obtain ⟨p, hp, hpb⟩ := forall2_right_mem (mapM_ok.1 e2) hq
  obtain ⟨b', h1, h2⟩ := hps p hp
  rw [h1] at hpb
  cases hpb
  exact h2

theorem reindexPulses_base (mi : ℤ) {ps : List (Pulse K)} (h : ∀ p ∈ ps, p.basePulse.length = p.binsNumber) :
    ∀ p ∈ (reindexPulses mi ps).1, p.basePulse.length = p.binsNumber := by
  induction ps generalizing mi with
  | nil => simp [reindexPulses]
  | cons q ps ih =>
    intro p hp
    unfold reindexPulses at hp
    rcases List.mem_cons.1 hp with rfl | hp
    · exact h q (by simp)
    · exact ih _ (fun p hp => h p (by simp [hp])) p hp

theorem forall2_get {α β : Type*} {R : α → β → Prop} {l : List α} {r : List β} (h : List.Forall₂ R l r) {i : ℕ} {b : β}
    (hb : r[i]? = some b) : ∃ a, l[i]? = some a ∧ R a b := by
  induction h generalizing i with
  | nil => simp at hb
  | cons h1 _ ih =>
    cases i with
    | zero => simp only [List.getElem?_cons_zero, Option.some.injEq] at hb ⊢; exact ⟨_, rfl, hb ▸ h1⟩
    | succ i => simp only [List.getElem?_cons_succ] at hb ⊢; exact ih hb

/-- Drawing a new random basis never raises. -/
theorem Ready.select (h : Ready M pd td rd c) {rnd : ℕ → List K} (hr : EnoughRandom pd rnd) :
    ∃ c', c.selectBasis rnd = .ok c' ∧ Ready M pd td rd c' := by
  obtain ⟨c', h1, h2⟩ := foldlM_exists (f := fun (c : Controls K) i => c.selectBasisAt rnd i)
    (I := fun c => CInv M pd td rd c ∧ ∀ p ∈ c.pulses, p.basePulse.length = p.binsNumber)
    (l := List.range c.pulses.length) (b := c) (by
      intro i _ b hb
      have : ∃ b', b.selectBasisAt rnd i = .ok b' ∧ ∀ p ∈ b'.pulses, p.basePulse.length = p.binsNumber := by
        unfold Controls.selectBasisAt
        rcases hp : b.pulses[i]? with _ | p
        · exact ⟨b, rfl, hb.2⟩
        · dsimp only
          split
          · obtain ⟨d, hd, hpr⟩ := forall2_get hb.1.reach hp
            obtain ⟨q, h3, h4⟩ := drawSuper_exists hpr (hb.2 p (List.mem_of_getElem? hp)) (hr i d hd)
            simp only [h3, bind, Except.bind]
            refine ⟨_, rfl, ?_⟩
            refine reindexPulses_base _ ?_
            intro r hr
            rcases List.mem_or_eq_of_mem_set hr with h' | rfl
            · exact hb.2 r h'
            · exact h4
          · exact ⟨b, rfl, hb.2⟩
      obtain ⟨b', h3, h4⟩ := this
      exact ⟨b', h3, hb.1.selectAt h3, h4⟩) ⟨CInv.of_reach h.reach, h.base⟩
  have h1' : c.selectBasis rnd = .ok c' := h1
  refine ⟨c', h1', .select h.reach h1', h2.2, ?_, ?_⟩
  · rw [select_times h1']; exact h.names
  · rw [select_times h1']; exact h.alpha

end
end QuOCS

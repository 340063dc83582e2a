/-
Properties C98 and C99, continued: the calls of optimizations with several piecewise constant pulses and parameters.
-/
import Verif.Props.AdCalls
import Verif.Props.Bare
import Verif.Props.FirstProgram
import Verif.Lemmas.Dcrab

set_option linter.unusedSectionVars false
set_option linter.unusedVariables false

namespace QuOCS

/-! ### Specification -/

/-- The numbers of piecewise constant pulses and parameters: bins and amplitude variation of each pulse, initial value and amplitude variation
of each parameter. -/
structure Pieces where
  pulses : List (ℕ × ℚ)
  params : List (ℚ × ℚ)

/-- A dictionary whose pulses are piecewise constant with the numbers `c`, with default shaping and without shrinking; initial guess and scaling
function are free. -/
structure PiecewiseDictionary (d : PDict) (c : Pieces) : Prop where
  pulses : List.Forall₂ (fun p (b : ℕ × ℚ) => PiecewisePulse p ∧ setting p ["bins_number"] (.num 101) = .num b.1 ∧
    setting p ["amplitude_variation"] (.num 1) = .num b.2 ∧ IsFalse (setting p ["shrink_ampl_lim"] (.bool false)) ∧
    NoEntry (entry p ["shaping_options"])) (itemsAt d "pulses") c.pulses
  params : List.Forall₂ (fun p (b : ℚ × ℚ) => setting p ["initial_value"] (.num 1) = .num b.1 ∧
    setting p ["amplitude_variation"] (.num (1 / 10)) = .num b.2) (itemsAt d "parameters") c.params

/-- The number of all bins. -/
def Pieces.bins (c : Pieces) : ℕ := (c.pulses.map (·.1)).sum

/-- The number of entries of the search vector. -/
def Pieces.size (c : Pieces) : ℕ := c.bins + c.params.length

/-- The largest number of bins. -/
def Pieces.longest (c : Pieces) : ℕ := (c.pulses.map (·.1)).foldl max 0

/-- The start vector: zero for the bins, initial value for the parameters, plus a random part (between -1 and 1, if `u` is between 0 and 1) of the
amplitude variation. -/
def Pieces.start (c : Pieces) (u : Vec ℚ c.size) : Vec ℚ c.size := fun i =>
  let l := (c.pulses.map fun b => List.replicate b.1 ((0 : ℚ), b.2)).flatten ++ c.params
  let e := l.getD i (0, 0)
  e.1 + (1 - 2 * u i) * e.2

/-- The controls of the search vector `x`. Pulse by pulse, the bins take the next entries of `x`; they are added to the guess (within the limits),
multiplied by the scaling and brought into the limits. The last entries are the parameters, within their limits. The rows are filled with zeros to
the width `width`. -/
structure ShowsVector (lib : PyLib) (d : PDict) (c : Pieces) (width : ℕ) (x : List ℚ) (o : ControlsOut ℚ) : Prop where
  number : o.pulses.length = c.pulses.length ∧ o.timegrids.length = c.pulses.length ∧ o.parameters.length = c.params.length
  pulses : ∀ (i : ℕ) (p : PDict) (b : ℕ × ℚ) (lo hi : ℚ) (guess scaling : List ℚ → List ℚ), (itemsAt d "pulses")[i]? = some p →
    c.pulses[i]? = some b → setting p ["lower_limit"] (.num 0) = .num lo → setting p ["upper_limit"] (.num 1) = .num hi → lo ≤ hi →
    GuessSamples lib p b.1 guess → ScalingSamples lib p b.1 scaling →
    ∃ t, t.length = b.1 ∧ o.timegrids[i]? = some (t ++ List.replicate (width - b.1) 0) ∧
      o.pulses[i]? = some (List.zipWith (fun s y => within lo hi (s * y)) (scaling t)
        (List.zipWith (fun y v => within lo hi y + v) (guess t) ((x.drop ((c.pulses.map (·.1)).take i).sum).take b.1)) ++
        List.replicate (width - b.1) 0)
  params : ∀ (j : ℕ) (p : PDict) (lo hi : ℚ), (itemsAt d "parameters")[j]? = some p → setting p ["lower_limit"] (.num (1 / 10)) = .num lo →
    setting p ["upper_limit"] (.num (11 / 10)) = .num hi →
    ∃ y, x[c.bins + j]? = some y ∧ o.parameters[j]? = some (min (max lo y) hi)

/-! ### The controls -/

section
variable {M : MathFns ℚ} {pd : List (PulseDict ℚ)} {td : List (TimeDict ℚ)} {rd : List (ParamDict ℚ)} {c : Controls ℚ}

/-- the state of the controls during the first search -/
structure PieceState (M : MathFns ℚ) (pd : List (PulseDict ℚ)) (td : List (TimeDict ℚ)) (rd : List (ParamDict ℚ)) (c : Controls ℚ) : Prop where
  ready : Ready M pd td rd c
  base : ∀ p ∈ c.pulses, p.basePulse = zeros p.binsNumber

/-- the delivered controls -/
structure ShowsPieces (pd : List (PulseDict ℚ)) (rd : List (ParamDict ℚ)) (x : List ℚ) (o : ControlsOut ℚ) : Prop where
  number : o.pulses.length = pd.length ∧ o.timegrids.length = pd.length ∧ o.parameters.length = rd.length
  pulses : ∀ (i : ℕ) (d : PulseDict ℚ), pd[i]? = some d → ∃ t u, t.length = d.binsNumber ∧ u.length = d.binsNumber ∧
    o.timegrids[i]? = some t ∧ o.pulses[i]? = some u ∧ FromBare d t ((x.drop ((pd.map (·.binsNumber)).take i).sum).take d.binsNumber) u
  params : ∀ (j : ℕ) (d : ParamDict ℚ), rd[j]? = some d →
    ∃ y, x[(pd.map (·.binsNumber)).sum + j]? = some y ∧ o.parameters[j]? = some (min (max d.lower y) d.upper)

theorem qchain_at {k : ℕ} {ps : List (Param ℚ)} (h : QChain k ps) {i : ℕ} {p : Param ℚ} (hp : ps[i]? = some p) : p.ctrlList = [k + i] := by
  induction ps generalizing k i with
  | nil => simp at hp
  | cons q ps ih =>
    cases i with
    | zero => cases hp; exact h.1
    | succ i =>
      rw [List.getElem?_cons_succ] at hp
      rw [ih h.2.2 hp]
      congr 1; omega

theorem piece_numbers (hb : ∀ d ∈ pd, d.basis = .piecewise) (hi : CInv M pd td rd c) :
    c.pulses.map (·.nParams) = pd.map (·.binsNumber) := by
  have h : List.Forall₂ (fun d p => p.nParams = d.binsNumber) pd c.pulses := by
    rw [List.forall₂_iff_get]
    refine ⟨hi.reach.length_eq, fun j h1 h2 => ?_⟩
    have := (List.forall₂_iff_get.1 hi.reach).2 j h1 h2
    rw [this.w_length.2.1, hb _ (List.get_mem _ _)]
    rfl
  exact forall2_map_eq h fun _ _ h => h

theorem PieceState.get (hu : Usable pd td rd) (hT : FixedTimes td) (hb : ∀ d ∈ pd, d.basis = .piecewise) (hs : ∀ d ∈ pd, d.shapingOptions = none)
    (hk : ∀ d ∈ pd, d.shrink = false) (h : PieceState M pd td rd c) {x : List ℚ} (hx : x.length = searchDim pd rd) :
    ∃ c' o, c.getControls M x = .ok (c', o) ∧ PieceState M pd td rd c' ∧ ShowsPieces pd rd x o := by
  obtain ⟨c', o, h1, h2⟩ := h.ready.get hu hx
  have hi := CInv.of_reach h.ready.reach
  have hi' := CInv.of_reach h2.reach
  obtain ⟨ts, t1, t2, t3, t4, t5, t6, t7⟩ := getControls_parts h1
  have hlen := h.ready.samples hu hx h1
  have hgl := grids_length h.ready.reach h1
  refine ⟨c', o, h1, ⟨h2, fun q hq => ?_⟩, ?_, fun i d hd => ?_, fun j d hd => ?_⟩
  · obtain ⟨i, hq⟩ := List.mem_iff_getElem?.1 hq
    have hu' : ∃ u, o.pulses[i]? = some u := by
      rw [List.getElem?_eq_some_iff] at hq
      obtain ⟨hl, _⟩ := hq
      exact ⟨_, List.getElem?_eq_getElem (by rw [t4]; exact hl)⟩
    obtain ⟨u, hu'⟩ := hu'
    have hz : (c'.pulses.zip o.pulses)[i]? = some (q, u) := List.getElem?_zip_eq_some.2 ⟨hq, hu'⟩
    obtain ⟨p, hp, v, t, hv, ht, hget⟩ := forall2_left t3.flip hz
    unfold Pulse.getPulse at hget
    obtain ⟨u', _, hget⟩ := py_bind_ok.1 hget
    rw [py_pure_ok] at hget
    obtain ⟨rfl, _⟩ := Prod.mk.inj hget
    exact h.base p (List.mem_of_getElem? hp)
  · exact ⟨hlen.length_eq.symm, hgl.length_eq.symm, by rw [t7, List.length_map, hi'.params.length_eq]⟩
  · have hdm := List.mem_of_getElem? hd
    obtain ⟨p, hp, hr⟩ := forall2_at hi.reach hd
    obtain ⟨⟨q, u⟩, hq, v, t, hv, ht, hget⟩ := forall2_at t3 hp
    obtain ⟨hq1, hq2⟩ := List.getElem?_zip_eq_some.1 hq
    have hpm := List.mem_of_getElem? hp
    have hnp : p.nParams = d.binsNumber := by rw [hr.w_length.2.1, hb d hdm]; rfl
    rw [PChain_get hi.pchain hp, zero_add, piece_numbers hb hi] at hv
    obtain ⟨e, hvl⟩ := gather_slice hv
    rw [hnp] at e hvl
    refine ⟨q.timeGrid, u, forall2_both hgl hd (by rw [t5, List.getElem?_map, hq1]; rfl), forall2_both hlen hd hq2,
      by rw [t5, List.getElem?_map, hq1]; rfl, hq2, fun sc g hsc hg hscl hgl' => ?_⟩
    have hbas : p.basis = .piecewise := hr.fields.2.2.2.2.2.2.2.2.trans (hb d hdm)
    have hsh : (p.setInputs v t.getTime).shaped M = .ok v := by
      unfold Pulse.shaped
      rw [show (p.setInputs v t.getTime).basis = .piecewise from hbas]
      rfl
    have hbl : p.basePulse.length = p.binsNumber := by rw [h.base p hpm]; simp [zeros]
    have := pulse_from_bare hr hbl (hs d hdm) (hk d hdm) hsc hg hscl hgl' hvl hget (bare_of_shaped hsh)
    have hbins : p.binsNumber = d.binsNumber := hr.fields.2.2.2.2.1
    rw [h.base p hpm, hbins] at this
    have hz := bop_zeros (a := g.map (cutSample (min d.lowerLimit d.upperLimit) (max d.lowerLimit d.upperLimit))) (n := d.binsNumber)
      (.inl (by simp [hgl']))
    rw [bop_eq (by simp [hgl', zeros])] at hz
    rw [Except.ok.inj hz] at this
    rw [this, List.zipWith_map_left, ← e]
    rfl
  · obtain ⟨p, hp, hP⟩ := forall2_left hi.params hd
    obtain ⟨q, hq', v, hv, hst⟩ := forall2_left t6 hp
    rw [qchain_at hi.qchain hp, piece_numbers hb hi] at hv
    obtain ⟨k1, k2⟩ := gather_slice (k := (pd.map (·.binsNumber)).sum + j) (m := 1) hv
    obtain ⟨y, rfl⟩ := List.length_eq_one_iff.1 k2
    refine ⟨y, ?_, ?_⟩
    · have := congrArg (fun l : List ℚ => l[0]?) k1
      simpa [List.getElem?_take, List.getElem?_drop] using this.symm
    · unfold Param.setParameter at hst
      obtain ⟨z, hz, hst⟩ := py_bind_ok.1 hst
      rw [py_pure_ok] at hst
      rw [getIdx_ok] at hz
      cases hz
      rw [t7, List.getElem?_map, hq', ← hst]
      unfold Param.checkLimits
      rw [hP.2.1, hP.2.2.1]; rfl

theorem created_bases {o : Controls ℚ} (hc : mkControls M pd td rd = .ok o) : ∀ p ∈ o.pulses, p.basePulse = zeros p.binsNumber := by
  unfold mkControls at hc
  obtain ⟨⟨ps, mi⟩, h1, hc⟩ := py_bind_ok.1 hc
  obtain ⟨ts, _, hc⟩ := py_bind_ok.1 hc
  cases hc
  dsimp only
  clear * - h1
  revert h1
  generalize (-1 : ℤ) = k
  induction pd generalizing k ps with
  | nil => intro h1; cases h1; simp
  | cons x pd ih =>
    intro h1
    unfold mkPulses at h1
    obtain ⟨p, hp, h1⟩ := py_bind_ok.1 h1
    obtain ⟨⟨qs, k'⟩, hq, h1⟩ := py_bind_ok.1 h1
    cases h1
    intro q hq'
    rcases List.mem_cons.1 hq' with rfl | hq'
    · unfold mkPulse at hp
      simp only at hp
      split at hp
      · cases hp
      · cases hp; rfl
    · exact ih _ _ hq q hq'

theorem pieces_select (hb : ∀ d ∈ pd, d.basis = .piecewise) (h : CInv M pd td rd c) (r : ℕ → List ℚ) : c.selectBasis r = .ok c := by
  have hp : ∀ p ∈ c.pulses, p.basis = .piecewise := fun p hp => by
    obtain ⟨d, hd, hr⟩ := forall2_right_mem h.reach hp
    exact hr.fields.2.2.2.2.2.2.2.2.trans (hb d hd)
  unfold Controls.selectBasis
  generalize List.range c.pulses.length = l
  induction l with
  | nil => rfl
  | cons i l ih =>
    rw [List.foldlM_cons]
    have : c.selectBasisAt r i = .ok c := by
      unfold Controls.selectBasisAt
      split
      · rfl
      · rename_i p hpi
        rw [hp p (List.mem_of_getElem? hpi)]
        rfl
    rw [this]
    exact ih

theorem vecOfList_get {n : ℕ} {l : List ℚ} (h : l.length = n) : vecOfList n l = .ok fun i => l.getD i 0 := by
  unfold vecOfList
  rw [dif_pos h]
  congr 1
  funext i
  simp [List.getD, h]

/-- start point and start sizes -/
theorem pieces_start (hT : FixedTimes td) (hb : ∀ d ∈ pd, d.basis = .piecewise) {o : Controls ℚ} (hc : mkControls M pd td rd = .ok o) :
    o.mean = .ok (zeros (pd.map (·.binsNumber)).sum ++ rd.map (·.initialValue)) ∧
    o.sigma = .ok ((pd.map fun d => List.replicate d.binsNumber d.amplitudeVariation).flatten ++ rd.map (·.amplitudeVariation)) := by
  have e : pd.map (·.declared) = pd.map (·.binsNumber) := List.map_congr_left fun d hd => by
    unfold PulseDict.declared; rw [hb d hd]; rfl
  have e' : (pd.map fun d => List.replicate d.declared (d.startSize M)) = pd.map fun d => List.replicate d.binsNumber d.amplitudeVariation :=
    List.map_congr_left fun d hd => by
      unfold PulseDict.declared PulseDict.startSize; rw [hb d hd]; rfl
  constructor
  · rw [C21_initial_start_point hc, e]
  · rw [C21_start_sizes_partial (.create hc) hT, e']

end

/-! ### From the dictionary -/

section
variable {w : Surroundings} {d : PDict}

/-- the controls for the dictionary -/
theorem pieces_used {c : ControlDicts} {k : Pieces} (h : UsesControls w.lib d c) (hk : PiecewiseDictionary d k) :
    (∀ x ∈ c.pulses, x.basis = .piecewise) ∧ (∀ x ∈ c.pulses, x.shapingOptions = none) ∧ (∀ x ∈ c.pulses, x.shrink = false) ∧
    c.pulses.map (·.binsNumber) = k.pulses.map (·.1) ∧ c.pulses.map (·.amplitudeVariation) = k.pulses.map (·.2) ∧
    c.params.map (fun p => (p.initialValue, p.amplitudeVariation)) = k.params := by
  have hp : ∀ x ∈ c.pulses, x.basis = .piecewise ∧ x.shapingOptions = none ∧ x.shrink = false := by
    intro x hx
    obtain ⟨p, hpm, hU⟩ := forall2_mem h.pulses hx
    obtain ⟨b, hbm, h1, h2, h3, h4, h5⟩ := forall2_right_mem hk.pulses.flip hpm
    refine ⟨piecewise_basis hU h1, ?_, hU.shrink.2 h4⟩
    rcases hU.shaping with ⟨_, h⟩ | ⟨names, h, _⟩
    · exact h
    · rw [h] at h5
      rcases h5 with h5 | h5 <;> cases h5
  refine ⟨fun x hx => (hp x hx).1, fun x hx => (hp x hx).2.1, fun x hx => (hp x hx).2.2, ?_, ?_, ?_⟩
  · have := hk.pulses.length_eq
    have := h.pulses.length_eq
    apply List.ext_getElem
    · simp; omega
    · intro i h1 h2
      simp only [List.length_map] at h1 h2
      have a := (List.forall₂_iff_get.1 h.pulses).2 i (by omega) h1
      have b := (List.forall₂_iff_get.1 hk.pulses).2 i (by omega) h2
      have := a.bins
      simp only [List.get_eq_getElem] at this b
      rw [b.2.1] at this
      have := this.num
      simp only [List.getElem_map]
      exact_mod_cast this.symm
  · have := hk.pulses.length_eq
    have := h.pulses.length_eq
    apply List.ext_getElem
    · simp; omega
    · intro i h1 h2
      simp only [List.length_map] at h1 h2
      have a := (List.forall₂_iff_get.1 h.pulses).2 i (by omega) h1
      have b := (List.forall₂_iff_get.1 hk.pulses).2 i (by omega) h2
      have := a.variation
      simp only [List.get_eq_getElem] at this b
      rw [b.2.2.1] at this
      simp only [List.getElem_map]
      exact this.num
  · have := hk.params.length_eq
    have := h.params.length_eq
    apply List.ext_getElem
    · simp; omega
    · intro i h1 h2
      simp only [List.length_map] at h1 h2
      have a := (List.forall₂_iff_get.1 h.params).2 i (by omega) h1
      have b := (List.forall₂_iff_get.1 hk.params).2 i (by omega) h2
      simp only [List.get_eq_getElem] at a b
      have a1 := a.value
      have a2 := a.variation
      rw [b.1] at a1
      rw [b.2] at a2
      simp only [List.getElem_map]
      exact Prod.ext a1.num a2.num

/-- the delivered controls, in terms of the dictionary; the rows are filled up to `width` -/
theorem shows_vector {c : ControlDicts} {k : Pieces} (h : UsesControls w.lib d c) (hk : PiecewiseDictionary d k) {x : List ℚ} {o : ControlsOut ℚ}
    (hs : ShowsPieces c.pulses c.params x o) (width : ℕ) :
    ShowsVector w.lib d k width x
      { pulses := o.pulses.map fun u => u ++ List.replicate (width - u.length) 0
        timegrids := o.timegrids.map fun u => u ++ List.replicate (width - u.length) 0
        parameters := o.parameters } := by
  obtain ⟨_, _, _, hbins, _, hpar⟩ := pieces_used h hk
  have l1 : c.pulses.length = k.pulses.length := by simpa using congrArg List.length hbins
  have l2 : c.params.length = k.params.length := by simpa using congrArg List.length hpar
  obtain ⟨n1, n2, n3⟩ := hs.number
  refine ⟨⟨by simp [n1, l1], by simp [n2, l1], by rw [← l2]; exact n3⟩, fun i p b lo hi f g hp hb hlo hhi hle hf hg => ?_, fun j p lo hi hp hlo hhi => ?_⟩
  · obtain ⟨y, hy, hU⟩ := forall2_left h.pulses hp
    have hyb : y.binsNumber = b.1 := by
      have := congrArg (fun l : List ℕ => l[i]?) hbins
      simpa [hy, hb] using this
    obtain ⟨t, u, ht, hul, ht', hu', hF⟩ := hs.pulses i y hy
    have el : y.lowerLimit = lo := by have := hU.lower; rw [hlo] at this; exact this.num
    have eu : y.upperLimit = hi := by have := hU.upper; rw [hhi] at this; exact this.num
    obtain ⟨f1, f2⟩ := samples_used hU.guess hf
    obtain ⟨g1, g2⟩ := samples_used hU.scaling hg
    have htb : t.length = b.1 := ht.trans hyb
    have := hF (g t) (f t)
      (by
        rcases g1 with g1 | ⟨qs, g1, _, rfl⟩
        · exact .inr ⟨_, g1, rfl⟩
        · exact .inl g1)
      (by
        rcases f1 with f1 | ⟨qs, f1, _, rfl⟩
        · exact .inr ⟨_, f1, rfl⟩
        · exact .inl f1)
      (by rw [hyb]; exact g2 t htb) (by rw [hyb]; exact f2 t htb)
    have hcut : ∀ v, max (min v (max y.lowerLimit y.upperLimit)) (min y.lowerLimit y.upperLimit) = within lo hi v := fun v => by
      rw [el, eu]
      exact cut_within hle
    simp only [hcut, hbins, hyb] at this
    refine ⟨t, htb, ?_, ?_⟩
    · dsimp only
      rw [List.getElem?_map, ht', Option.map_some, htb]
    · dsimp only
      rw [List.getElem?_map, hu', Option.map_some, hul, hyb, this]
  · obtain ⟨y, hy, hU⟩ := forall2_left h.params hp
    obtain ⟨v, hv, hv'⟩ := hs.params j y hy
    have el : y.lower = lo := by have := hU.lower; rw [hlo] at this; exact this.num
    have eu : y.upper = hi := by have := hU.upper; rw [hhi] at this; exact this.num
    rw [hbins] at hv
    exact ⟨v, hv, by rw [← el, ← eu]; exact hv'⟩

/-- the start vector -/
theorem start_vector {c : ControlDicts} {k : Pieces} (h : UsesControls w.lib d c) (hk : PiecewiseDictionary d k) (u : Vec ℚ k.size) :
    grapeStart u (fun i => (zeros (c.pulses.map (·.binsNumber)).sum ++ c.params.map (·.initialValue) : List ℚ).getD i 0)
      (fun i => ((c.pulses.map fun d => List.replicate d.binsNumber d.amplitudeVariation).flatten ++ c.params.map (·.amplitudeVariation)).getD i 0) =
    k.start u := by
  obtain ⟨_, _, _, hbins, hvar, hpar⟩ := pieces_used h hk
  have e1 : (zeros (c.pulses.map (·.binsNumber)).sum ++ c.params.map (·.initialValue) : List ℚ) =
      ((k.pulses.map fun b => List.replicate b.1 ((0 : ℚ), b.2)).flatten ++ k.params).map (·.1) := by
    rw [hbins, List.map_append, ← hpar, List.map_map]
    congr 1
    clear * -
    induction k.pulses with
    | nil => rfl
    | cons b l ih =>
      simp only [List.map_cons, List.flatten_cons, List.map_append, List.sum_cons, List.map_replicate]
      rw [← ih]
      simp [zeros]
  have hpairs : c.pulses.map (fun d => (d.binsNumber, d.amplitudeVariation)) = k.pulses := by
    have l1 : c.pulses.length = k.pulses.length := by simpa using congrArg List.length hbins
    apply List.ext_getElem
    · simpa using l1
    · intro i h1 h2
      have a := congrArg (fun l : List ℕ => l[i]?) hbins
      have b := congrArg (fun l : List ℚ => l[i]?) hvar
      simp only [List.length_map] at h1
      simp only [List.getElem?_map, List.getElem?_eq_getElem h1, List.getElem?_eq_getElem h2, Option.map_some, Option.some.injEq] at a b
      rw [List.getElem_map]
      exact Prod.ext a b
  have e2 : (c.pulses.map fun d => List.replicate d.binsNumber d.amplitudeVariation).flatten ++ c.params.map (·.amplitudeVariation) =
      ((k.pulses.map fun b => List.replicate b.1 ((0 : ℚ), b.2)).flatten ++ k.params).map (·.2) := by
    rw [← hpairs, List.map_append, ← hpar, List.map_map, List.map_map]
    congr 1
    clear * -
    induction c.pulses with
    | nil => rfl
    | cons b l ih =>
      simp only [List.map_cons, List.flatten_cons, List.map_append, List.map_replicate, Function.comp]
      rw [← ih]
  rw [e1, e2]
  funext i
  unfold grapeStart Pieces.start
  dsimp only
  set l := (k.pulses.map fun b => List.replicate b.1 ((0 : ℚ), b.2)).flatten ++ k.params
  have h1 : (l.map (·.1)).getD i 0 = (l.getD i (0, 0)).1 := by simp [List.getD]; cases l[(i : ℕ)]? <;> rfl
  have h2 : (l.map (·.2)).getD i 0 = (l.getD i (0, 0)).2 := by simp [List.getD]; cases l[(i : ℕ)]? <;> rfl
  rw [h1, h2]
  ring

end

/-! ### The property with automatic differentiation -/

section
variable {M : MathFns ℚ} {pd : List (PulseDict ℚ)} {td : List (TimeDict ℚ)} {rd : List (ParamDict ℚ)} {rnd : ℕ → ℕ → List ℚ} {n : ℕ}

/-- the run of a search with a minimizer -/
theorem follows_ad_pieces {cfg : AlgCfg ℚ ℚ} (hone : cfg.maxSI = 1) (hn : n = searchDim pd rd) (hu : Usable pd td rd) (hT : FixedTimes td)
    (hb : ∀ d ∈ pd, d.basis = .piecewise) (hs : ∀ d ∈ pd, d.shapingOptions = none) (hk : ∀ d ∈ pd, d.shrink = false)
    {o : Controls ℚ} (hc : mkControls M pd td rd = .ok o)
    (env : Env (Vec ℚ n) (ControlsOut ℚ) ℚ) (u : ℕ → Vec ℚ n) (m : Vec ℚ n → AdMinimizer (Vec ℚ n) ℚ)
    (g : List (Call (Vec ℚ n) (ControlsOut ℚ) ℚ) → Vec ℚ n → Vec ℚ n) {lib : AdLib (Vec ℚ n) (ControlsOut ℚ) ℚ}
    (hlib : lib = ⟨g, fun k mean sigma => .ok (grapeStart (u k) mean sigma), fun v => (m v).calls⟩) {x0 : Vec ℚ n}
    (hx0 : x0 = grapeStart (u 1) (fun i => (zeros (pd.map (·.binsNumber)).sum ++ rd.map (·.initialValue) : List ℚ).getD i 0)
      (fun i => ((pd.map fun d => List.replicate d.binsNumber d.amplitudeVariation).flatten ++ rd.map (·.amplitudeVariation)).getD i 0)) :
    (m x0).Runs (dirMul cfg.maximize) (fun x c => ∃ o, ShowsPieces pd rd (List.ofFn x) o ∧ c = o.filled pd) g cfg.fomMax
      (Halted (adCfg cfg) env) (∃ i, env.async i = .sigint) false [] (adExecute lib cfg env (adOps M rnd) o).2.marks := by
  obtain ⟨o', h1, h2⟩ := mkControls_exists (M := M) hu
  obtain rfl : o' = o := by rw [hc] at h1; cases h1; rfl
  obtain ⟨m1, m2⟩ := pieces_start hT hb hc
  have hdim : searchDim pd rd = (pd.map (·.binsNumber)).sum + rd.length := by
    unfold searchDim
    rw [show pd.map (·.declared) = pd.map (·.binsNumber) from List.map_congr_left fun d hd => by
      unfold PulseDict.declared; rw [hb d hd]; rfl]
  have hmean : (adOps M rnd).mean o' = .ok fun i : Fin n => (zeros (pd.map (·.binsNumber)).sum ++ rd.map (·.initialValue) : List ℚ).getD i 0 := by
    show (do vecOfList n (← o'.mean)) = _
    rw [m1]
    exact vecOfList_get (by simp [zeros, hn, hdim])
  have hsigma : (adOps M rnd).sigma o' = .ok fun i : Fin n =>
      ((pd.map fun d => List.replicate d.binsNumber d.amplitudeVariation).flatten ++ rd.map (·.amplitudeVariation)).getD i 0 := by
    show (do vecOfList n (← o'.sigma)) = _
    rw [m2]
    exact vecOfList_get (by simp [hn, hdim, List.length_flatten, Function.comp_def])
  have hselect : (adOps M rnd (n := n)).selectBasis 1 o' = .ok o' := pieces_select hb (CInv.of_reach h2.reach) _
  set s1 : AdState (Vec ℚ n) (ControlsOut ℚ) (Controls ℚ) ℚ := ⟨{ initState (adCfg cfg) env o' with superIt := 1 }, []⟩ with hs1
  have hU : UnderwayOn (adCfg cfg) env (PieceState M pd td rd) s1.evals s1.alg :=
    ⟨⟨h2, created_bases hc⟩, fun _ => rfl, .inl rfl, fun h => by cases h⟩
  obtain ⟨l, hl, hr, -⟩ := AdMinimizer.runs_of_interp (lib := lib) (cfg := adCfg cfg) (env := env) (ops := adOps M rnd) rfl
    (B := fun x c => ∃ o, ShowsPieces pd rd (List.ofFn x) o ∧ c = o.filled pd)
    (fun c v h => by
      obtain ⟨c', o, k1, k2, k3⟩ := h.get hu hT hb hs hk (x := List.ofFn v) (by simp [hn])
      subst hn
      exact ⟨c', _, (ad_get hu h.ready).2 ⟨o, k1, rfl⟩, k2, o, k3, rfl⟩)
    (m x0) false (s := s1) (fun i hi => by cases hi) hU (fun h => by cases h)
  have hg : lib.grad = g := by rw [hlib]
  rw [hg] at hr
  have hmarks : (adExecute lib cfg env (adOps M rnd) o').2.marks = l := by
    have hl' : (((m x0).calls.interp lib (adCfg cfg) env (adOps M rnd)) s1).2.marks = l := hl
    have hinner : adInnerRun lib (adCfg cfg) env (adOps M rnd) 1 s1 = ((m x0).calls.interp lib (adCfg cfg) env (adOps M rnd)) s1 := by
      unfold adInnerRun
      rw [Prog.get_bind, Prog.bind_apply, Prog.lift_apply, show s1.alg.ctl = o' from rfl, hsigma]
      dsimp only
      rw [Prog.bind_apply, Prog.lift_apply, hmean]
      dsimp only
      rw [Prog.bind_apply, Prog.lift_apply]
      subst hlib
      dsimp only
      rw [hx0]
    have hloop : adExecute lib cfg env (adOps M rnd) o' = adSuperIteration lib (adCfg cfg) env (adOps M rnd) 1 ⟨initState (adCfg cfg) env o', []⟩ := by
      unfold adExecute
      rw [hone]
      unfold adLoop
      rw [Prog.bind_apply]
      unfold adLoop
      split
      · rename_i a s' heq
        rw [heq]
        rfl
      · rename_i e s' heq
        rw [heq]
    rw [hloop]
    unfold adSuperIteration
    rw [Prog.bind_ok (show onAlg (Prog.modify fun s => { s with superIt := 1 }) ⟨initState (adCfg cfg) env o', []⟩ = (.ok (), s1) from rfl),
      Prog.get_bind, Prog.bind_apply, Prog.lift_apply, show s1.alg.ctl = o' from rfl, hselect]
    dsimp only
    rw [Prog.bind_ok (show onAlg (Prog.modify fun s => { s with ctl := o' }) s1 = (.ok (), s1) from rfl), Prog.bind_apply, hinner]
    split
    · rename_i heq
      rw [heq] at hl'
      rw [← hl']
      unfold AdState.marks onAlg
      dsimp only
      rw [updateBasePulses_log]
    · rename_i heq
      rw [heq] at hl'
      exact hl'
  rw [hmarks]
  exact hr

end

section
variable {w : Surroundings} {d : PDict} {k : Pieces}

theorem pieces_size {c : ControlDicts} (h : UsesControls w.lib d c) (hk : PiecewiseDictionary d k) : k.size = searchDim c.pulses c.params := by
  obtain ⟨hb, _, _, hbins, _, hpar⟩ := pieces_used h hk
  unfold searchDim Pieces.size Pieces.bins
  rw [show c.pulses.map (·.declared) = c.pulses.map (·.binsNumber) from List.map_congr_left fun d hd => by
    unfold PulseDict.declared; rw [hb d hd]; rfl, hbins, ← hpar, List.length_map]

theorem follows_shows_ad {n : ℕ} {B B' : Vec ℚ n → ControlsOut ℚ → Prop} (hB : ∀ x c, B x c → B' x c) {g : List Seen → Vec ℚ n → Vec ℚ n}
    (m : AdMinimizer (Vec ℚ n) ℚ) (st : Bool) (before calls : List AdCall) (h : m.Follows w d B g st before calls) :
    m.Follows w d B' g st before calls := by
  induction m generalizing st before calls with
  | stop => exact h
  | value x k ih =>
    unfold AdMinimizer.Follows at h ⊢
    rcases h with ⟨h1, h2⟩ | ⟨h1, c, cs, e, h3, h4, h5⟩
    · exact .inl ⟨h1, h2.imp id (ih _ _ _ _)⟩
    · refine .inr ⟨h1, c, cs, e, h3, hB _ _ h4, ?_⟩
      split
      · rename_i f hf
        rw [hf] at h5
        exact fun v hv => ih _ _ _ _ (h5 v hv)
      · rename_i hf
        rw [hf] at h5
        exact h5
  | gradient x k ih =>
    unfold AdMinimizer.Follows at h ⊢
    obtain ⟨c, cs, e, h3, h4, h5⟩ := h
    refine ⟨c, cs, e, h3, hB _ _ h4, ?_⟩
    split
    · rename_i f hf
      rw [hf] at h5
      exact ih _ _ _ _ h5
    · rename_i hf
      rw [hf] at h5
      exact h5

/-- **C99, partial.** With any number of piecewise constant pulses, with initial guesses and scaling functions, and any number of parameters: the
user's function is called exactly for the vectors for which L-BFGS-B asks for a figure of merit or a gradient, with the controls of the vector
(the rows of all pulses are as long as the longest one). L-BFGS-B has the options in the dictionary and a start vector around zero and the initial
values; it gets the figure of merit of each call with the right sign and the gradient at each vector; figures of merit are no longer computed only
for one of the documented reasons. Missing: more than one super-iteration, other bases, optimized times. -/
theorem C99_follows_many_partial {L : AdProgramLib} {r : AdOutcome} (h : optimizeAD w L d = some (.ok r)) (hp : PlainControls w.lib d)
    (hk : PiecewiseDictionary d k) (h1 : setting d ["algorithm_settings", "super_iteration_number"] (.num 1) = .num 1) :
    (L.minimize (setting d ["algorithm_settings", "stopping_criteria", "ftol"] (.num (1 / 10 ^ 6)))
      (setting d ["algorithm_settings", "stopping_criteria", "max_eval_total"] (.num (10 ^ 10)))
      (setting d ["algorithm_settings", "stopping_criteria", "gtol"] (.num (1 / 10 ^ 6)))
      (setting d ["algorithm_settings", "stopping_criteria", "maxls"] (.num 20))
      (k.start (w.draws 1))).Follows w d (fun x c => ShowsVector w.lib d k k.longest (List.ofFn x) c) (fun calls x => L.gradient calls x) false []
        r.calls := by
  obtain ⟨s, cfg, o, h⟩ := ad_parts h
  obtain ⟨_, hmax, _, _, _, hsi⟩ := ad_cfg h.hcfg
  have hone : cfg.maxSI = 1 := by
    have := h.uses.superIterations rfl
    rw [h1] at this
    have e : s.maxSI = 1 := by
      have h2 : IsInt w.lib (.num ((1 : ℤ) : ℚ)) s.maxSI := by simpa using this
      exact h2.int
    rw [hsi, e]
    rfl
  obtain ⟨hu, hf⟩ := usable_controls h.uses.controls hp
  obtain ⟨hb, hso, hsh, hbins, _, _⟩ := pieces_used h.uses.controls hk
  have hn := pieces_size h.uses.controls hk
  have hcalls : ∀ n, n = s.vars → (adExecute (s.adLib w L n) cfg (w.env n) (adOps w.lib.M w.rnd) o).2.marks.map adSeen = r.calls := by
    rintro n rfl
    exact h.marks.symm
  have hruns := follows_ad_pieces (cfg := cfg) (M := w.lib.M) (rnd := w.rnd) (n := k.size) hone hn hu hf hb hso hsh h.hcontrols (w.env k.size)
    (fun k => w.draws k) (L.minimize s.ftol s.maxEval s.gtol s.maxls) _ (lib := s.adLib w L k.size) rfl
    (start_vector h.uses.controls hk (w.draws 1)).symm
  have hfol := follows_of_runs_ad (w := w) (d := d) (mx := cfg.maximize) (g := fun calls x => L.gradient calls x) h.maximize
    (fun l h' => ad_halts h rfl h') id _ _ [] _ (by rw [hmax] at hruns; exact hruns)
  rw [hcalls _ hn] at hfol
  rw [← h.uses.ftol, ← h.uses.maxEval, ← h.uses.gtol, ← h.uses.maxls]
  refine follows_shows_ad ?_ _ _ _ _ hfol
  rintro x c ⟨o, ho, rfl⟩
  have := shows_vector h.uses.controls hk ho k.longest
  unfold ControlsOut.filled
  rw [show width s.controls.pulses = k.longest by unfold width Pieces.longest; rw [hbins]]
  exact this

end

/-! ### The property with GRAPE -/

section
variable {M : MathFns ℚ} {pd : List (PulseDict ℚ)} {td : List (TimeDict ℚ)} {rd : List (ParamDict ℚ)} {n : ℕ}

/-- the run of a search with a minimizer -/
theorem follows_run_pieces {cfg : AlgCfg ℚ ℚ} (hkind : cfg.kind = .grape) (hn : n = searchDim pd rd) (hu : Usable pd td rd) (hT : FixedTimes td)
    (hb : ∀ d ∈ pd, d.basis = .piecewise) (hs : ∀ d ∈ pd, d.shapingOptions = none) (hk : ∀ d ∈ pd, d.shrink = false)
    {o : Controls ℚ} (hc : mkControls M pd td rd = .ok o)
    (env : Env (Vec ℚ n) (ControlsOut ℚ) ℚ) (u : Vec ℚ n) (m : Vec ℚ n → Minimizer (Vec ℚ n) ℚ) (g : Vec ℚ n → Vec ℚ n) {x0 : Vec ℚ n}
    (hx0 : x0 = grapeStart u (fun i => (zeros (pd.map (·.binsNumber)).sum ++ rd.map (·.initialValue) : List ℚ).getD i 0)
      (fun i => ((pd.map fun d => List.replicate d.binsNumber d.amplitudeVariation).flatten ++ rd.map (·.amplitudeVariation)).getD i 0)) :
    (m x0).Runs (dirMul cfg.maximize) (fun x c => ShowsPieces pd rd (List.ofFn x) c) g
      (Halted cfg env (execute cfg env (grapeOps M u) (fun _ v sim _ => (m (sim.head?.getD v)).calls g v 0) o).2.log)
      (execute cfg env (grapeOps M u) (fun _ v sim _ => (m (sim.head?.getD v)).calls g v 0) o).2.log := by
  obtain ⟨o', h1, h2⟩ := mkControls_exists (M := M) hu
  obtain rfl : o' = o := by rw [hc] at h1; cases h1; rfl
  obtain ⟨m1, m2⟩ := pieces_start hT hb hc
  have hdim : searchDim pd rd = (pd.map (·.binsNumber)).sum + rd.length := by
    unfold searchDim
    rw [show pd.map (·.declared) = pd.map (·.binsNumber) from List.map_congr_left fun d hd => by
      unfold PulseDict.declared; rw [hb d hd]; rfl]
  have hmean : (grapeOps M u).mean o' = .ok fun i : Fin n => (zeros (pd.map (·.binsNumber)).sum ++ rd.map (·.initialValue) : List ℚ).getD i 0 := by
    show (do vecOfList n (← o'.mean)) = _
    rw [m1]
    exact vecOfList_get (by simp [zeros, hn, hdim])
  have hsigma : (grapeOps M u).sigma o' = .ok fun i : Fin n =>
      ((pd.map fun d => List.replicate d.binsNumber d.amplitudeVariation).flatten ++ rd.map (·.amplitudeVariation)).getD i 0 := by
    show (do vecOfList n (← o'.sigma)) = _
    rw [m2]
    exact vecOfList_get (by simp [hn, hdim, List.length_flatten, Function.comp_def])
  have hU : Underway cfg env (PieceState M pd td rd) (initState cfg env o') :=
    ⟨⟨h2, created_bases hc⟩, fun _ => rfl, .inl rfl, fun h => by cases h⟩
  obtain ⟨l, hl, hr⟩ := Minimizer.runs_of_interp (g := g) (ops := grapeOps M u) (B := fun x c => ShowsPieces pd rd (List.ofFn x) c) hkind
    (fun c v h => by
      obtain ⟨c', o, k1, k2, k3⟩ := h.get hu hT hb hs hk (x := List.ofFn v) (by simp [hn])
      exact ⟨c', o, by rw [grape_get]; exact k1, k2, k3⟩)
    (m x0) (fun i => (zeros (pd.map (·.binsNumber)).sum ++ rd.map (·.initialValue) : List ℚ).getD i 0) 0 hU
  have hlog : (execute cfg env (grapeOps M u) (fun _ v sim _ => (m (sim.head?.getD v)).calls g v 0) o').2.log = l := by
    unfold execute run
    rw [hkind]
    dsimp only
    rw [Prog.get_bind, Prog.bind_apply, Prog.lift_apply]
    rw [show (initState cfg env o').ctl = o' from rfl, hmean]
    dsimp only
    rw [Prog.bind_apply, Prog.lift_apply, hsigma]
    dsimp only
    rw [Prog.bind_apply, Prog.lift_apply]
    show ((_ >>= fun _ => updateBasePulses (grapeOps M u)) _).2.log = l
    rw [Prog.bind_apply]
    simp only [List.head?_cons, Option.getD_some]
    rw [hx0] at hl
    have hl' : _ = l := hl
    split
    · rename_i heq
      rw [heq] at hl'
      rw [updateBasePulses_log]
      exact hl'
    · rename_i heq
      rw [heq] at hl'
      exact hl'
  rw [hlog]
  exact hr

end

section
variable {w : Surroundings} {d : PDict} {k : Pieces}

theorem follows_shows {n : ℕ} {B B' : Vec ℚ n → ControlsOut ℚ → Prop} (hB : ∀ x c, B x c → B' x c) {g : Vec ℚ n → Vec ℚ n} {E : Prop}
    (m : Minimizer (Vec ℚ n) ℚ) (calls : List Seen) (h : m.Follows d B g E calls) : m.Follows d B' g E calls := by
  induction m generalizing calls with
  | stop => exact h
  | ask x k ih =>
    cases calls with
    | nil => exact h
    | cons c cs =>
      unfold Minimizer.Follows at h ⊢
      refine ⟨hB _ _ h.1, ?_⟩
      have h2 := h.2
      split
      · rename_i f hf
        rw [hf] at h2
        exact fun v hv => ih _ _ _ (h2 v hv)
      · rename_i hf
        rw [hf] at h2
        exact h2

/-- **C98.** The same as `C98_follows` with an initial guess and a scaling function of the pulse: they are part of the controls, L-BFGS-B starts
around zero in any case. -/
theorem C98_follows_shaped {L : GrapeLib} {r : Outcome} (h : optimizeGrape w L d = some (.ok r)) (hp : PlainControls w.lib d)
    (hk : PiecewiseDictionary d k) (hone : ∃ b, k = ⟨[b], []⟩) :
    (L.minimize (setting d ["algorithm_settings", "stopping_criteria", "ftol"] (.num (1 / 10 ^ 6)))
      (setting d ["algorithm_settings", "stopping_criteria", "max_eval_total"] (.num (10 ^ 10)))
      (setting d ["algorithm_settings", "stopping_criteria", "gtol"] (.num (1 / 10 ^ 6)))
      (setting d ["algorithm_settings", "stopping_criteria", "maxls"] (.num 20))
      (k.start (w.draws 0))).Follows d (fun x c => ShowsVector w.lib d k 0 (List.ofFn x) c) L.gradient (MayStop w d r.calls) r.calls := by
  obtain ⟨s, cfg, o, h⟩ := grape_parts h
  obtain ⟨hkind, _⟩ := grape_cfg h.hcfg
  obtain ⟨hu, hf⟩ := usable_controls h.uses.controls hp
  obtain ⟨hb, hso, hsh, hbins, _, _⟩ := pieces_used h.uses.controls hk
  have hn := pieces_size h.uses.controls hk
  have hruns := follows_run_pieces (cfg := cfg) (M := w.lib.M) (n := k.size) hkind hn hu hf hb hso hsh h.hcontrols (w.env k.size)
    (w.draws 0) (L.minimize s.ftol s.maxEval s.gtol s.maxls) L.gradient (start_vector h.uses.controls hk (w.draws 0)).symm
  have hcalls : ∀ n, n = s.vars → (execute cfg (w.env n) (grapeOps w.lib.M (w.draws 0))
      (fun _ v sim _ => (L.minimize s.ftol s.maxEval s.gtol s.maxls (sim.head?.getD v)).calls L.gradient v 0) o).2.log.map
        (fun k => (k.ctl, k.ans)) = r.calls := by
    rintro n rfl
    exact h.calls.symm
  have hfol := follows_of_runs (d := d) (mx := cfg.maximize) h.maximize (fun h' => grape_halts h rfl h') _ _ hruns
  rw [hcalls _ hn] at hfol
  rw [← h.uses.ftol, ← h.uses.maxEval, ← h.uses.gtol, ← h.uses.maxls]
  refine follows_shows (fun x c hc => ?_) _ _ hfol
  have := shows_vector h.uses.controls hk hc 0
  simpa using this

end

/-! ### A concrete optimization -/

def exTwoPulses : List PDict :=
  [mkDict [("pulse_name", .str "p"), ("time_name", .str "t"), ("bins_number", .num 3), ("lower_limit", .num (-1)), ("upper_limit", .num 2),
    ("amplitude_variation", .num 1), ("basis", .dict (mkDict [("basis_name", .str "PiecewiseBasis")])),
    ("initial_guess", .dict (mkDict [("function_type", .str "list_function"), ("list_function", .list (numList [1, 5, 0]))])),
    ("scaling_function", .dict (mkDict [("function_type", .str "list_function"), ("list_function", .list (numList [1, 1 / 2, 1]))]))],
   mkDict [("pulse_name", .str "q"), ("time_name", .str "t"), ("bins_number", .num 2), ("lower_limit", .num (-1)), ("upper_limit", .num 2),
    ("amplitude_variation", .num 2), ("basis", .dict (mkDict [("basis_name", .str "PiecewiseBasis")]))]]

/-- automatic differentiation with two piecewise constant pulses, one of them with guess and scaling, and one parameter -/
def exAdTwo (m : ℤ) : PDict :=
  exSettings [("algorithm_name", .str "AD"), ("max_eval_total", .num m)] (exTwoPulses.map .dict)
    [exParam [("initial_value", .num (1 / 3)), ("upper_limit", .num 2)]] [exTime]

def exTwoPieces : Pieces := ⟨[(3, 1), (2, 2)], [(1 / 3, 1 / 2)]⟩

/-- The hypotheses of `C99_follows_many_partial` are met. -/
theorem exAdTwo_meets (m : ℤ) : PlainControls exLib (exAdTwo m) ∧ PiecewiseDictionary (exAdTwo m) exTwoPieces ∧
    setting (exAdTwo m) ["algorithm_settings", "super_iteration_number"] (.num 1) = .num 1 ∧
    (∃ f, GuessSamples exLib exTwoPulses[0] 3 f) ∧ ∃ f, ScalingSamples exLib exTwoPulses[0] 3 f := by
  have hp : itemsAt (exAdTwo m) "pulses" = exTwoPulses := rfl
  have ht : itemsAt (exAdTwo m) "times" = [mkDict [("time_name", .str "t"), ("initial_value", .num 3)]] := rfl
  have hq : itemsAt (exAdTwo m) "parameters" = [mkDict [("parameter_name", .str "a"), ("lower_limit", .num (-1)), ("amplitude_variation", .num (1 / 2)),
    ("initial_value", .num (1 / 3)), ("upper_limit", .num 2)]] := rfl
  have h1 : GuessSamples exLib exTwoPulses[0] 3 (fun _ => [1, 5, 0]) :=
    .inr ⟨_, rfl, .inl ⟨rfl, _, _, rfl, ⟨_, .inl rfl, numList_items _⟩, rfl, rfl⟩⟩
  have h2 : ScalingSamples exLib exTwoPulses[0] 3 (fun _ => [1, 1 / 2, 1]) :=
    .inr ⟨_, rfl, .inl ⟨rfl, _, _, rfl, ⟨_, .inl rfl, numList_items _⟩, rfl, rfl⟩⟩
  refine ⟨⟨.inl (by rw [hp]; simp [exTwoPulses]), fun p h => ?_, fun t h => ?_⟩, ⟨?_, ?_⟩, rfl, ⟨_, h1⟩, ⟨_, h2⟩⟩
  · rw [hp] at h
    unfold exTwoPulses at h
    rcases List.mem_cons.1 h with rfl | h
    · refine ⟨⟨3, by norm_num, rfl, ⟨_, h1⟩, ⟨_, h2⟩⟩, ⟨1, le_refl _, rfl⟩, ?_⟩
      rw [ht]
      exact ⟨_, List.mem_singleton.2 rfl, rfl⟩
    · rw [List.mem_singleton] at h
      subst h
      refine ⟨⟨2, by norm_num, rfl, ⟨_, .inl ⟨.inl rfl, rfl⟩⟩, ⟨_, .inl ⟨.inl rfl, rfl⟩⟩⟩, ⟨1, le_refl _, rfl⟩, ?_⟩
      rw [ht]
      exact ⟨_, List.mem_singleton.2 rfl, rfl⟩
  · rw [ht, List.mem_singleton] at h
    subst h
    exact .inr (.inl rfl)
  · rw [hp]
    exact .cons ⟨⟨rfl, rfl⟩, rfl, rfl, .inr (.inl rfl), .inl rfl⟩ (.cons ⟨⟨rfl, rfl⟩, rfl, rfl, .inr (.inl rfl), .inl rfl⟩ .nil)
  · rw [hq]
    exact .cons ⟨rfl, rfl⟩ .nil

/-- the calls with pulses and parameters -/
def adControlsOf : Option (Py AdOutcome) → List (Bool × List (List ℚ) × List ℚ)
  | some (.ok r) => r.calls.map fun c => (c.forGradient, c.seen.1.pulses, c.seen.1.parameters)
  | _ => []

/-- the start vector and the first call -/
example : List.ofFn (exTwoPieces.start fun i => 1 / (2 + i.val)) = [0, 1 / 3, 1 / 2, 6 / 5, 4 / 3, 29 / 42] ∧
    (adControlsOf (optimizeAD exGrapeAround exAdLib (exAdTwo 1))).head? =
      some (false, [[1, 7 / 6, 1 / 2], [6 / 5, 4 / 3, 0]], [29 / 42]) := by
  constructor <;> decide +kernel

/-- GRAPE with the first of the two pulses -/
def exGrapeShaped (m : ℤ) : PDict :=
  exSettings [("algorithm_name", .str "GRAPE"), ("max_eval_total", .num m)] [.dict exTwoPulses[0]] [] [exTime]

/-- The hypotheses of `C98_follows_shaped` are met. -/
example (m : ℤ) : PlainControls exLib (exGrapeShaped m) ∧ PiecewiseDictionary (exGrapeShaped m) ⟨[(3, 1)], []⟩ := by
  obtain ⟨h, -, -, h1, h2⟩ := exAdTwo_meets m
  have hp : itemsAt (exGrapeShaped m) "pulses" = [exTwoPulses[0]] := rfl
  refine ⟨⟨.inl (by rw [hp]; simp), fun p h' => ?_, h.times⟩, ⟨?_, .nil⟩⟩
  · rw [hp, List.mem_singleton] at h'
    subst h'
    obtain ⟨a, b, -⟩ := h.pulses exTwoPulses[0] (List.mem_cons_self : exTwoPulses[0] ∈ exTwoPulses)
    exact ⟨a, b, mkDict [("time_name", .str "t"), ("initial_value", .num 3)], List.mem_singleton.2 rfl, rfl⟩
  · rw [hp]
    exact .cons ⟨⟨rfl, rfl⟩, rfl, rfl, .inr (.inl rfl), .inl rfl⟩ .nil

/-- The start vector is `(0, 1/3, 1/2)`; it is halved in every step. The guess `(1, 2, 0)` (within the limits) is added, and the second sample is
multiplied by `1/2`. -/
example : samplesOf (optimizeGrape exGrapeAround exGrapeLib (exGrapeShaped 2)) = [[1, 7 / 6, 1 / 2], [1, 13 / 12, 1 / 4]] := by decide +kernel

end QuOCS

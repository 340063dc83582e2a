/-
Controls objects whose parameters have other origins and units.
-/
import Verif.Lemmas.Recoord
import Verif.Lemmas.ControlsRepro
import Verif.Props.Controls
import Verif.Spec.Usable

set_option linter.unusedSectionVars false
set_option linter.unusedVariables false

namespace QuOCS

section
variable {K : Type} [Field K] [LinearOrder K] [IsStrictOrderedRing K]
variable {M : MathFns K} {pd : List (PulseDict K)} {td : List (TimeDict K)} {rd : List (ParamDict K)}

/-- the parameter object in another unit -/
def Param.inUnit (u : K × K) (p : Param K) : Param K :=
  { p with value := u.1 * p.value + u.2, lower := u.1 * p.lower + u.2, upper := u.1 * p.upper + u.2
           amplitudeVariation := u.1 * p.amplitudeVariation }

/-- the controls object in other units -/
def Controls.inUnits (us : List (K × K)) (c : Controls K) : Controls K :=
  { c with params := List.zipWith Param.inUnit us c.params }

theorem Param.inUnit_limits {u : K × K} (hu : 0 < u.1) (p : Param K) (x : K) :
    (p.inUnit u).checkLimits (u.1 * x + u.2) = u.1 * p.checkLimits x + u.2 := by
  have hm : Monotone fun x => u.1 * x + u.2 := fun a b h => by
    have := mul_le_mul_of_nonneg_left h hu.le
    simpa using this
  unfold Param.checkLimits
  show min (max (u.1 * p.lower + u.2) (u.1 * x + u.2)) (u.1 * p.upper + u.2) = _
  rw [← hm.map_max (a := p.lower) (b := x), ← hm.map_min (a := max p.lower x) (b := p.upper)]

theorem mkParams_inUnits (us : List (K × K)) (rd : List (ParamDict K)) : ∀ mi,
    mkParams mi (paramsInUnits us rd) = List.zipWith Param.inUnit us (mkParams mi rd) := by
  induction us generalizing rd with
  | nil => intro mi; rfl
  | cons u us ih =>
    intro mi
    rcases rd with _ | ⟨d, rd⟩
    · rfl
    · show mkParam mi (d.inUnit u.1 u.2) :: mkParams _ (paramsInUnits us rd) = _
      rw [ih]
      rfl

theorem mkControls_inUnits (us : List (K × K)) {c : Controls K} (h : mkControls M pd td rd = .ok c) :
    mkControls M pd td (paramsInUnits us rd) = .ok (c.inUnits us) := by
  unfold mkControls at h ⊢
  obtain ⟨⟨ps, mi⟩, h1, h⟩ := py_bind_ok.1 h
  obtain ⟨ts, h2, h⟩ := py_bind_ok.1 h
  rw [py_pure_ok] at h
  subst h
  rw [h1]
  simp only [bind, Except.bind]
  rw [h2, mkParams_inUnits]
  rfl

theorem reindexParams_inUnits (us : List (K × K)) (ps : List (Param K)) : ∀ mi,
    reindexParams mi (List.zipWith Param.inUnit us ps) = List.zipWith Param.inUnit us (reindexParams mi ps) := by
  induction us generalizing ps with
  | nil => intro mi; rfl
  | cons u us ih =>
    intro mi
    rcases ps with _ | ⟨p, ps⟩
    · rfl
    · show (p.inUnit u).setCtrlList mi :: reindexParams _ (List.zipWith Param.inUnit us ps) = _
      rw [ih]
      rfl

theorem selectBasis_inUnits (us : List (K × K)) (rnd : ℕ → List K) (c : Controls K) :
    (c.inUnits us).selectBasis rnd = (c.selectBasis rnd).map (Controls.inUnits us) := by
  unfold Controls.selectBasis
  rw [show (c.inUnits us).pulses = c.pulses from rfl]
  generalize List.range c.pulses.length = l
  induction l generalizing c with
  | nil => rfl
  | cons i l ih =>
    rw [List.foldlM_cons, List.foldlM_cons]
    have h : (c.inUnits us).selectBasisAt rnd i = (c.selectBasisAt rnd i).map (Controls.inUnits us) := by
      unfold Controls.selectBasisAt
      rw [show (c.inUnits us).pulses = c.pulses from rfl]
      rcases c.pulses[i]? with _ | p
      · rfl
      · dsimp only
        split
        · rcases p.drawSuper (rnd i) with e | p'
          · rfl
          · show Except.ok (Controls.reindex _) = Except.ok ((Controls.reindex _).inUnits us)
            congr 1
            unfold Controls.reindex Controls.inUnits
            dsimp only
            rw [reindexParams_inUnits]
        · rfl
    rw [h]
    rcases c.selectBasisAt rnd i with e | c'
    · rfl
    · exact ih c'

/-- the entries of a list in the given units -/
def linList (us : List (K × K)) (xs : List K) : List K := List.zipWith (fun u x => u.1 * x + u.2) us xs

theorem getIdx_lin {us : List (K × K)} {xs : List K} (hl : us.length = xs.length) {i : ℕ} {u : K × K} (hu : us[i]? = some u) :
    getIdx (linList us xs) i = (getIdx xs i).map fun x => u.1 * x + u.2 := by
  unfold getIdx linList
  rw [List.getElem?_zipWith, hu]
  rcases xs[i]? with _ | x <;> rfl

theorem gather_lin {us : List (K × K)} {xs : List K} (hl : us.length = xs.length) {idx : List ℕ} (h : ∀ i ∈ idx, us[i]? = some (1, 0)) :
    gather (linList us xs) idx = gather xs idx := by
  unfold gather
  induction idx with
  | nil => rfl
  | cons i idx ih =>
    rw [List.mapM_cons, List.mapM_cons, ih fun j hj => h j (List.mem_cons_of_mem _ hj), getIdx_lin hl (h i List.mem_cons_self)]
    rcases getIdx xs i with e | x
    · rfl
    · show (Except.ok (1 * x + 0) >>= _) = _
      rw [one_mul, add_zero]

theorem slotUnits_left {us : List (K × K)} {i : ℕ} (h : i < (pd.map (·.declared)).sum) : (slotUnits pd us)[i]? = some (1, 0) := by
  unfold slotUnits
  rw [List.getElem?_append_left (by simpa using h), List.getElem?_replicate, if_pos h]

theorem slotUnits_right (us : List (K × K)) (i : ℕ) : (slotUnits pd us)[(pd.map (·.declared)).sum + i]? = us[i]? := by
  unfold slotUnits
  rw [List.getElem?_append_right (by simp)]
  simp

/-- all parameters set from the search vector -/
def setAll (xs : List K) (ps : List (Param K)) : Py (List (Param K)) :=
  ps.mapM (fun p => do let v ← gather xs p.ctrlList; p.setParameter v)

/-- Reading the parameters from the vector in the other units. -/
theorem params_inUnits {ws : List (K × K)} {xs : List K} (hl : ws.length = xs.length) (us : List (K × K)) : ∀ (k : ℕ) (ps : List (Param K)),
    QChain k ps → us.length = ps.length → (∀ u ∈ us, 0 < u.1) → (∀ i, ws[k + i]? = us[i]?) →
    setAll (linList ws xs) (List.zipWith Param.inUnit us ps) = (setAll xs ps).map (List.zipWith Param.inUnit us) := by
  unfold setAll
  induction us with
  | nil =>
    intro k ps hq h1 h2 h3
    obtain rfl := List.length_eq_zero_iff.1 h1.symm
    rfl
  | cons u us ih =>
    intro k ps hq h1 h2 h3
    rcases ps with _ | ⟨p, ps⟩
    · cases h1
    obtain ⟨q1, q2, q3⟩ := hq
    have hrec := ih (k + 1) ps q3 (by simpa using h1) (fun v hv => h2 v (List.mem_cons_of_mem _ hv))
      (fun i => by have h4 := h3 (i + 1); rw [List.getElem?_cons_succ] at h4; rw [← h4]; congr 1; omega)
    rw [List.zipWith_cons_cons, List.mapM_cons, List.mapM_cons, hrec]
    have hg : (do let v ← gather (linList ws xs) (p.inUnit u).ctrlList; (p.inUnit u).setParameter v) =
        (do let v ← gather xs p.ctrlList; p.setParameter v).map (Param.inUnit u) := by
      rw [show (p.inUnit u).ctrlList = p.ctrlList from rfl, q1]
      unfold gather
      rw [List.mapM_cons, List.mapM_cons, getIdx_lin hl (by have := h3 0; simpa using this)]
      rcases getIdx xs k with e | x
      · rfl
      · show Except.ok { p.inUnit u with value := (p.inUnit u).checkLimits (u.1 * x + u.2) } = _
        rw [Param.inUnit_limits (h2 u List.mem_cons_self)]
        rfl
    rw [hg]
    rcases (do let v ← gather xs p.ctrlList; p.setParameter v : Py (Param K)) with e | q
    · rfl
    · rcases ps.mapM (fun p => do let v ← gather xs p.ctrlList; p.setParameter v : Param K → Py (Param K)) with e | qs
      · rfl
      · rfl

theorem mapM_congr_mem {α β : Type} {l : List α} {f g : α → Py β} (h : ∀ a ∈ l, f a = g a) : l.mapM f = l.mapM g := by
  induction l with
  | nil => rfl
  | cons a l ih =>
    rw [List.mapM_cons, List.mapM_cons, h a List.mem_cons_self, ih fun b hb => h b (List.mem_cons_of_mem _ hb)]

theorem mapM_pair (l : List (Param K)) (xs : List K) :
    l.mapM (fun p => do let v ← gather xs p.ctrlList; p.getParameter v) = (setAll xs l).map (List.map fun p => (p, p.value)) := by
  unfold setAll
  induction l with
  | nil => rfl
  | cons p l ih =>
    rw [List.mapM_cons, List.mapM_cons, ih]
    generalize l.mapM (fun p => do let v ← gather xs p.ctrlList; p.setParameter v : Param K → Py (Param K)) = Q
    unfold Param.getParameter
    rcases gather xs p.ctrlList with e | v
    · rfl
    rcases hp : p.setParameter v with e | q
    · simp only [bind, Except.bind, hp]; rfl
    · simp only [bind, Except.bind, hp]
      rcases Q with e | qs <;> rfl

theorem getControls_eq (c : Controls K) (x : List K) : c.getControls M x = (do
    let ts ← setTimes x c.times
    let ps ← c.pulses.mapM (fun p => do
      let v ← gather x p.ctrlList
      let t ← dictGet ts p.timeName
      p.getPulse M v t.getTime)
    let prs ← setAll x c.params
    pure ({ pulses := ps.map (·.1), params := prs, times := ts },
          { pulses := ps.map (·.2), timegrids := ps.map (·.1.timeGrid), parameters := prs.map (·.value) })) := by
  unfold Controls.getControls
  congr 1
  funext ts
  congr 1
  funext ps
  rw [mapM_pair]
  rcases setAll x c.params with e | prs
  · rfl
  · show Except.ok _ = Except.ok _
    simp [Function.comp_def]

theorem getIdx_getElem (ws : List (K × K)) {i : ℕ} (h : i < ws.length) : ws.getD i (1, 0) = ws[i] := by
  simp [List.getD, h]

/-- the size of the start simplex in the units `ws` -/
def sizesInUnits {n : ℕ} (ws : List (K × K)) (x : Vec K n) : Vec K n := fun j => (ws.getD j (1, 0)).1 * x j

theorem ofFn_inUnits {n : ℕ} {ws : List (K × K)} (hl : ws.length = n) (x : Vec K n) :
    List.ofFn (vecInUnits ws x) = linList ws (List.ofFn x) := by
  apply List.ext_getElem
  · simp [linList, hl]
  · intro i h1 h2
    have hi : i < n := by simpa using h1
    simp only [List.getElem_ofFn, linList, List.getElem_zipWith, vecInUnits]
    rw [getIdx_getElem ws (by omega)]

/-- the controls of the same run in the other units -/
def InUnitsOf (M : MathFns K) (pd : List (PulseDict K)) (td : List (TimeDict K)) (rd : List (ParamDict K)) (us : List (K × K))
    (c c' : Controls K) : Prop :=
  ControlsReach M pd td rd c ∧ ControlsReach M pd td (paramsInUnits us rd) c' ∧ c' = c.inUnits us

variable {us : List (K × K)} {n : ℕ}

theorem slotUnits_length (hu : us.length = rd.length) (hn : n = searchDim pd rd) : (slotUnits pd us).length = n := by
  simp [slotUnits, searchDim, hn, hu]

theorem parts_inUnits {c c' : Controls K} (h : InUnitsOf M pd td rd us c c') (hf : FixedTimes td) (hp : ∀ u ∈ us, 0 < u.1)
    (hu : us.length = rd.length) (hn : n = searchDim pd rd) (x : Vec K n) :
    setTimes (List.ofFn (vecInUnits (slotUnits pd us) x)) c'.times = setTimes (List.ofFn x) c.times ∧
    (∀ p ∈ c.pulses, gather (List.ofFn (vecInUnits (slotUnits pd us) x)) p.ctrlList = gather (List.ofFn x) p.ctrlList) ∧
    setAll (List.ofFn (vecInUnits (slotUnits pd us) x)) c'.params =
      (setAll (List.ofFn x) c.params).map (List.zipWith Param.inUnit us) := by
  obtain ⟨h1, h2, rfl⟩ := h
  have hI := CInv.of_reach h1
  have hl := slotUnits_length hu hn
  have hl' : (slotUnits pd us).length = (List.ofFn x).length := by simp [hl]
  refine ⟨?_, ?_, ?_⟩
  · unfold setTimes
    exact mapM_congr_mem fun t ht => by rw [hI.fixed hf t ht]; rfl
  · intro p hpm
    rw [ofFn_inUnits hl]
    refine gather_lin hl' fun i hi => slotUnits_left ?_
    have := ((PChain_lt hI.pchain) p hpm).1 i hi
    rw [hI.declared] at this
    simpa using this
  · rw [ofFn_inUnits hl]
    refine params_inUnits hl' us _ _ hI.qchain (by rw [hu, hI.params.length_eq]) hp fun i => ?_
    rw [hI.declared]
    exact slotUnits_right us i

theorem mapIdx_eq_zipWith {us : List (K × K)} {xs : List K} (h : us.length = xs.length) :
    xs.mapIdx (fun i v => (us.getD i (1, 0)).1 * v + (us.getD i (1, 0)).2) = List.zipWith (fun u v => u.1 * v + u.2) us xs := by
  apply List.ext_getElem
  · simp [h]
  · intro i h1 h2
    have hi : i < us.length := by simp at h1; omega
    rw [List.getElem_mapIdx, List.getElem_zipWith, getIdx_getElem us hi]

theorem setAll_length {xs : List K} {ps qs : List (Param K)} (h : setAll xs ps = .ok qs) : qs.length = ps.length := by
  unfold setAll at h
  rw [mapM_ok] at h
  exact h.length_eq.symm

theorem getControls_inUnits {c c' : Controls K} (h : InUnitsOf M pd td rd us c c') (hf : FixedTimes td) (hp : ∀ u ∈ us, 0 < u.1)
    (hu : us.length = rd.length) (hn : n = searchDim pd rd) (x : Vec K n) :
    c'.getControls M (List.ofFn (vecInUnits (slotUnits pd us) x)) =
      (c.getControls M (List.ofFn x)).map fun r => (r.1.inUnits us, r.2.inUnits us) := by
  obtain ⟨p1, p2, p3⟩ := parts_inUnits h hf hp hu hn x
  obtain ⟨h1, h2, h3⟩ := h
  have e : c'.pulses = c.pulses := by rw [h3]; rfl
  rw [getControls_eq, getControls_eq, p1, p3, e]
  rcases setTimes (List.ofFn x) c.times with er | ts
  · rfl
  simp only [bind, Except.bind]
  rw [mapM_congr_mem (fun p hpm => by rw [p2 p hpm])]
  rcases List.mapM _ c.pulses with er | ps
  · rfl
  rcases hs : setAll (List.ofFn x) c.params with er | prs
  · rfl
  · have hl : us.length = (prs.map (·.value)).length := by
      rw [List.length_map, setAll_length hs, ← (CInv.of_reach h1).params.length_eq, hu]
    show Except.ok (_, _) = Except.ok (_, _)
    congr 2
    unfold ControlsOut.inUnits
    dsimp only
    rw [mapIdx_eq_zipWith hl]
    congr 1
    simp only [List.map_zipWith, List.zipWith_map_right]
    rfl

theorem updateBase_inUnits {c c' : Controls K} (h : InUnitsOf M pd td rd us c c') (hf : FixedTimes td) (hp : ∀ u ∈ us, 0 < u.1)
    (hu : us.length = rd.length) (hn : n = searchDim pd rd) (x : Vec K n) :
    c'.updateBase M (List.ofFn (vecInUnits (slotUnits pd us) x)) =
      (c.updateBase M (List.ofFn x)).map (Controls.inUnits us) := by
  obtain ⟨p1, p2, p3⟩ := parts_inUnits h hf hp hu hn x
  obtain ⟨h1, h2, h3⟩ := h
  have e : c'.pulses = c.pulses := by rw [h3]; rfl
  unfold Controls.updateBase
  rw [p1, e]
  rcases setTimes (List.ofFn x) c.times with er | ts
  · rfl
  simp only [bind, Except.bind]
  rw [mapM_congr_mem (fun p hpm => by rw [p2 p hpm])]
  rcases List.mapM _ c.pulses with er | ps
  · rfl
  dsimp only
  have p3' := p3
  unfold setAll at p3'
  simp only [bind, Except.bind] at p3'
  rw [p3']
  generalize (List.mapM _ c.params : Py (List (Param K))) = q
  rcases q with er | q <;> rfl

theorem vecOfList_inUnits {ws : List (K × K)} {xs : List K} (hl : xs.length = n) (hw : ws.length = n) :
    ∃ v, vecOfList n xs = .ok v ∧ vecOfList n (linList ws xs) = .ok (vecInUnits ws v) ∧
      vecOfList n (List.zipWith (fun u x => u.1 * x) ws xs) = .ok (sizesInUnits ws v) := by
  unfold vecOfList
  rw [dif_pos hl, dif_pos (by simp [linList, hl, hw]), dif_pos (by simp [hl, hw])]
  refine ⟨_, rfl, congrArg Except.ok (funext fun i => ?_), congrArg Except.ok (funext fun i => ?_)⟩
  · have := i.2
    unfold vecInUnits
    rw [getIdx_getElem ws (by omega)]
    simp [linList]
  · have := i.2
    unfold sizesInUnits
    rw [getIdx_getElem ws (by omega)]
    simp

theorem zipWith_replicate_left {α β γ : Type} (f : α → β → γ) (a : α) (l : List β) :
    List.zipWith f (List.replicate l.length a) l = l.map (f a) := by
  induction l with
  | nil => rfl
  | cons b l ih => simp [List.replicate_succ, ih]

theorem corresponds_inUnits (kind : AlgKind) (sqrt : K → K) (rnd : ℕ → ℕ → List K) (draws : ℕ → Vec K n) (hf : FixedTimes td)
    (hp : ∀ u ∈ us, 0 < u.1) (hu : us.length = rd.length) (hn : n = searchDim pd rd) :
    Corresponds (systemOps kind M sqrt rnd draws) (systemOps kind M sqrt rnd draws) (InUnitsOf M pd td rd us)
      (vecInUnits (slotUnits pd us)) (sizesInUnits (slotUnits pd us)) (ControlsOut.inUnits us) where
  get c c' x h := by
    have key := getControls_inUnits h hf hp hu hn x
    show RelPy _ (getControlsFor kind M c (List.ofFn x)) (getControlsFor kind M c' (List.ofFn (vecInUnits (slotUnits pd us) x)))
    unfold getControlsFor
    rw [key]
    obtain ⟨h1, h2, h3⟩ := h
    rcases hc : c.getControls M (List.ofFn x) with er | ⟨c1, o1⟩
    · rfl
    rw [hc] at key
    show RelPy _ (if kind = .directSearch ∧ o1.pulses ≠ [] then _ else _) (if kind = .directSearch ∧ o1.pulses ≠ [] then _ else _)
    by_cases hk : kind = .directSearch ∧ o1.pulses ≠ []
    · rw [if_pos hk, if_pos hk]
      rfl
    · rw [if_neg hk, if_neg hk]
      exact ⟨⟨.get h1 hc, .get h2 key, rfl⟩, rfl⟩
  mean c c' h := by
    obtain ⟨h1, h2, h3⟩ := h
    show RelPy _ (c.mean >>= vecOfList n) (c'.mean >>= vecOfList n)
    rw [C21_start_point h1, C21_start_point h2]
    have hI := CInv.of_reach h1
    obtain ⟨v, v1, v2, -⟩ := vecOfList_inUnits (n := n) (ws := slotUnits pd us)
      (xs := zeros (pd.map (·.declared)).sum ++ c.params.map (·.value)) (by
        simp [zeros, hn, searchDim, hI.params.length_eq]) (slotUnits_length hu hn)
    have e : linList (slotUnits pd us) (zeros (pd.map (·.declared)).sum ++ c.params.map (·.value)) =
        zeros (pd.map (·.declared)).sum ++ c'.params.map (·.value) := by
      unfold linList slotUnits
      rw [List.zipWith_append (by simp [zeros])]
      congr 1
      · unfold zeros
        rw [List.zipWith_replicate]
        simp
      · rw [h3]
        simp only [Controls.inUnits, List.map_zipWith, List.zipWith_map_right]
        rfl
    rw [e] at v2
    show RelPy _ (vecOfList n _) (vecOfList n _)
    rw [v1, v2]
    exact rfl
  sigma c c' h := by
    obtain ⟨h1, h2, h3⟩ := h
    show RelPy _ (c.sigma >>= vecOfList n) (c'.sigma >>= vecOfList n)
    rw [C21_start_sizes_partial h1 hf, C21_start_sizes_partial h2 hf]
    have hl : ((pd.map (fun d => List.replicate d.declared (d.startSize M))).flatten).length = (pd.map (·.declared)).sum := by
      simp [List.length_flatten, Function.comp_def]
    obtain ⟨v, v1, -, v2⟩ := vecOfList_inUnits (n := n) (ws := slotUnits pd us)
      (xs := (pd.map (fun d => List.replicate d.declared (d.startSize M))).flatten ++ rd.map (·.amplitudeVariation)) (by
        rw [List.length_append, hl, List.length_map, hn, searchDim]) (slotUnits_length hu hn)
    have e : List.zipWith (fun u x => u.1 * x) (slotUnits pd us)
        ((pd.map (fun d => List.replicate d.declared (d.startSize M))).flatten ++ rd.map (·.amplitudeVariation)) =
        (pd.map (fun d => List.replicate d.declared (d.startSize M))).flatten ++
          (paramsInUnits us rd).map (·.amplitudeVariation) := by
      unfold slotUnits
      rw [List.zipWith_append (by rw [List.length_replicate, hl])]
      congr 1
      · rw [← hl, zipWith_replicate_left]
        simp
      · unfold paramsInUnits
        simp only [List.map_zipWith, List.zipWith_map_right]
        rfl
    rw [e] at v2
    show RelPy _ (vecOfList n _) (vecOfList n _)
    rw [v1, v2]
    exact rfl
  update c c' x h := by
    have key := updateBase_inUnits h hf hp hu hn x
    show RelPy _ (c.updateBase M (List.ofFn x)) (c'.updateBase M (List.ofFn (vecInUnits (slotUnits pd us) x)))
    obtain ⟨h1, h2, h3⟩ := h
    rcases hc : c.updateBase M (List.ofFn x) with er | c1
    · rw [key, hc]; rfl
    · rw [hc] at key
      rw [key]
      exact ⟨.base h1 hc, .base h2 key, rfl⟩
  select k c c' h := by
    obtain ⟨h1, h2, rfl⟩ := h
    have key := selectBasis_inUnits us (rnd k) c
    show RelPy _ (c.selectBasis (rnd k)) ((c.inUnits us).selectBasis (rnd k))
    rcases hc : c.selectBasis (rnd k) with er | c1
    · rw [key, hc]; rfl
    · rw [hc] at key
      rw [key]
      exact ⟨.select h1 hc, .select h2 key, rfl⟩
  simplex k x sg := by
    show RelPy _ (simplexCreation sqrt x sg (draws k)) (simplexCreation sqrt _ _ (draws k))
    unfold simplexCreation
    split
    · rfl
    · show _ = List.map _ (_ :: _)
      rw [List.map_cons, List.map_map]
      congr 1
      · funext j; simp [vecInUnits]
      · apply List.map_congr_left
        intro i _
        funext j
        simp only [vecInUnits, sizesInUnits, Function.comp]
        ring

end
end QuOCS

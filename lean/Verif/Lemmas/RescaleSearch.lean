/-
Nelder-Mead and CMA-ES compare figures of merit and do nothing else with them: on another scale they take the same steps.
-/
import Verif.Lemmas.Rescale
import Verif.Model.CMAES

set_option linter.unusedSectionVars false
set_option linter.unusedVariables false

namespace QuOCS

section
variable {K F : Type} {n : ℕ} [Field K] [LinearOrder K]
variable [Add F] [Sub F] [Mul F] [Div F] [Neg F] [Zero F] [One F] [NatCast F] [LE F] [LT F] [DecidableLE F]
  [DecidableLT F]
variable {φ : F → F} {real : F → Prop} {top : F} {l l' : Bool}

/-- the order of the values is the same on both scales -/
structure SameOrder (φ : F → F) (real : F → Prop) (top : F) : Prop where
  lt : ∀ a b, (real a ∨ a = top) → (real b ∨ b = top) → (φ a < φ b ↔ a < b)
  le : ∀ a b, (real a ∨ a = top) → (real b ∨ b = top) → (φ a ≤ φ b ↔ a ≤ b)

theorem Val.mono {v : F} (h : Val real top l v) (hl : l' = true → l = true) : Val real top l' v := by
  rcases h with h | ⟨rfl, h⟩
  · exact .inl h
  · refine .inr ⟨?_, h⟩
    rcases l' with _ | _
    · rfl
    · cases hl rfl

theorem Val.or {v : F} (h : Val real top l v) : real v ∨ v = top := h.imp_right And.right

/-- the Nelder-Mead search on the other scale -/
def NmState.rescale (φ : F → F) (s : NmState K F n) : NmState K F n := { s with fsim := φ ∘ s.fsim }

/-- both searches are in the same situation -/
def NmRel (φ : F → F) (real : F → Prop) (top : F) (l : Bool) (s s' : NmState K F n) : Prop :=
  s' = s.rescale φ ∧ ∀ i, Val real top l (s.fsim i)

/-- the same, with an equal flag -/
def NmRelB (φ : F → F) (real : F → Prop) (top : F) (l : Bool) (s s' : Bool × NmState K F n) : Prop :=
  s'.1 = s.1 ∧ NmRel φ real top l s.2 s'.2

theorem NmRel.mono {s s' : NmState K F n} (h : NmRel φ real top l s s') (hl : l' = true → l = true) : NmRel φ real top l' s s' :=
  ⟨h.1, fun i => (h.2 i).mono hl⟩

theorem nmReplace_rel {s : NmState K F n} (h : ∀ i, Val real top l (s.fsim i)) (x : Vec K n) {f : F} (hf : Val real top l f) :
    NmRel φ real top l (nmReplace x f s) (nmReplace x (φ f) (s.rescale φ)) := by
  refine ⟨?_, fun i => ?_⟩
  · unfold nmReplace NmState.rescale
    simp only
    congr 1
    funext i
    simp only [Function.comp, Function.update_apply]
    split <;> rfl
  · show Val real top l (Function.update s.fsim (Fin.last n) f i)
    rw [Function.update_apply]
    split
    · exact hf
    · exact h i

theorem nmEval_rel (x : Vec K n) {s : NmState K F n} (h : ∀ i, Val real top l (s.fsim i)) :
    SRel (K := K) φ real top (fun l' (a b : F × NmState K F n) => b.1 = φ a.1 ∧ Val real top l' a.1 ∧ NmRel φ real top l' a.2 b.2 ∧
        a.2 = { s with calls := s.calls + 1 }) l
      (nmEval x s) (nmEval x (s.rescale φ)) :=
  .eval _ _ _ _ _ fun l' v hl hv => .ret _ _ _ ⟨rfl, hv, ⟨rfl, fun i => (h i).mono hl⟩, rfl⟩

theorem nmConv_rel {α β : Type} {Q : Bool → α → β → Prop} {f : Bool → Strat K (Vec K n) F α} {f' : Bool → Strat K (Vec K n) F β}
    (h : ∀ b, SRel φ real top Q l (f b) (f' b)) : SRel φ real top Q l (Strat.bind nmConv f) (Strat.bind nmConv f') :=
  .readConv _ _ _ h

theorem nmInit_rel (ks : List (Fin (n + 1))) : ∀ (l : Bool) (s s' : NmState K F n),
    s' = { s with fsim := s'.fsim } → (∀ i, i ∉ ks → s'.fsim i = φ (s.fsim i) ∧ Val real top l (s.fsim i)) →
    SRel (K := K) φ real top (NmRel φ real top) l (nmInit ks s) (nmInit ks s') := by
  induction ks with
  | nil =>
    intro l s s' h1 h2
    refine .ret _ _ _ ⟨?_, fun i => (h2 i (by simp)).2⟩
    rw [h1]
    unfold NmState.rescale
    congr 1
    funext i
    exact (h2 i (by simp)).1
  | cons k ks ih =>
    intro l s s' h1 h2
    have e : s'.sim = s.sim ∧ s'.iterations = s.iterations := by rw [h1]; exact ⟨rfl, rfl⟩
    have ec : s'.calls = s.calls := by rw [h1]
    have ed : s'.lastDrift = s.lastDrift := by rw [h1]
    show SRel φ real top _ l (Strat.bind (nmEval (s.sim k) s) _) (Strat.bind (nmEval (s'.sim k) s') _)
    unfold nmEval
    rw [e.1, e.2]
    refine .eval _ _ _ _ _ fun l' v hl hv => ?_
    refine ih l' _ _ ?_ fun i hi => ?_
    · simp only [ec, ed]
    · show (Function.update s'.fsim k (φ v) i) = φ (Function.update s.fsim k v i) ∧ Val real top l' (Function.update s.fsim k v i)
      rw [Function.update_apply, Function.update_apply]
      by_cases hk : i = k
      · simp only [hk, if_true]
        exact ⟨trivial, hv⟩
      · simp only [hk, if_false]
        have := h2 i (by simp [hk, hi])
        exact ⟨this.1, this.2.mono hl⟩

theorem nmShrink_rel (co : NmCoef K) (js : List (Fin (n + 1))) : ∀ (l : Bool) (s : NmState K F n), (∀ i, Val real top l (s.fsim i)) →
    SRel (K := K) φ real top (NmRel φ real top) l (nmShrink co js s) (nmShrink co js (s.rescale φ)) := by
  induction js with
  | nil => exact fun l s h => .ret _ _ _ ⟨rfl, h⟩
  | cons j js ih =>
    intro l s h
    refine nmConv_rel fun b => ?_
    rcases b with _ | _
    · refine (nmEval_rel (s.sim 0 + co.sigma • (s.sim j - s.sim 0))
        (s := { s with sim := Function.update s.sim j (s.sim 0 + co.sigma • (s.sim j - s.sim 0)) }) h).bind ?_
      rintro l' ⟨f, s1⟩ ⟨f', s1'⟩ hl ⟨rfl, hv, hr, rfl⟩
      have hupd : ∀ (s1 : NmState K F n), ({ (s1.rescale φ) with fsim := Function.update (s1.rescale φ).fsim j (φ f) } : NmState K F n) =
          ({ s1 with fsim := Function.update s1.fsim j f } : NmState K F n).rescale φ := by
        intro s1
        unfold NmState.rescale
        simp only
        congr 1
        funext i
        simp only [Function.comp, Function.update_apply]
        split <;> rfl
      obtain ⟨rfl, hr⟩ := hr
      show SRel φ real top _ l' _ (nmShrink co js _)
      rw [hupd]
      refine ih l' _ fun i => ?_
      show Val real top l' (Function.update s.fsim j f i)
      rw [Function.update_apply]
      split
      · exact hv
      · exact hr i
    · exact .ret _ _ _ ⟨rfl, h⟩

theorem nmExpand_rel (hO : SameOrder φ real top) (co : NmCoef K) (xbar xr : Vec K n) {fxr : F} (hf : Val real top l fxr)
    {s : NmState K F n} (h : ∀ i, Val real top l (s.fsim i)) :
    SRel (K := K) φ real top (NmRelB φ real top) l (nmExpand co xbar xr fxr s) (nmExpand co xbar xr (φ fxr) (s.rescale φ)) := by
  refine nmConv_rel fun b => ?_
  rcases b with _ | _
  · refine (nmEval_rel _ h).bind ?_
    rintro l' ⟨f, s1⟩ ⟨f', s1'⟩ hl ⟨rfl, hv, ⟨rfl, hr⟩, -⟩
    show SRel φ real top _ l' (if f < fxr then _ else _) (if φ f < φ fxr then _ else _)
    simp only [hO.lt _ _ hv.or hf.or]
    split
    · exact .ret _ _ _ ⟨rfl, nmReplace_rel hr _ hv⟩
    · exact .ret _ _ _ ⟨rfl, nmReplace_rel hr _ (hf.mono hl)⟩
  · exact .ret _ _ _ ⟨rfl, rfl, h⟩

theorem nmOutside_rel (hO : SameOrder φ real top) (co : NmCoef K) (xbar : Vec K n) {fxr : F} (hf : Val real top l fxr)
    {s : NmState K F n} (h : ∀ i, Val real top l (s.fsim i)) :
    SRel (K := K) φ real top (NmRelB φ real top) l (nmOutside co xbar fxr s) (nmOutside co xbar (φ fxr) (s.rescale φ)) := by
  refine nmConv_rel fun b => ?_
  rcases b with _ | _
  · refine (nmEval_rel _ h).bind ?_
    rintro l' ⟨f, s1⟩ ⟨f', s1'⟩ hl ⟨rfl, hv, ⟨rfl, hr⟩, -⟩
    show SRel φ real top _ l' (if f ≤ fxr then _ else _) (if φ f ≤ φ fxr then _ else _)
    simp only [hO.le _ _ hv.or hf.or]
    split
    · exact .ret _ _ _ ⟨rfl, nmReplace_rel hr _ hv⟩
    · exact (nmShrink_rel co _ l' s1 hr).bind fun l'' a b _ hab => .ret _ _ _ ⟨rfl, hab⟩
  · exact .ret _ _ _ ⟨rfl, rfl, h⟩

theorem nmInside_rel (hO : SameOrder φ real top) (co : NmCoef K) (xbar : Vec K n) {s : NmState K F n}
    (h : ∀ i, Val real top l (s.fsim i)) :
    SRel (K := K) φ real top (NmRelB φ real top) l (nmInside co xbar s) (nmInside co xbar (s.rescale φ)) := by
  refine nmConv_rel fun b => ?_
  rcases b with _ | _
  · refine (nmEval_rel _ h).bind ?_
    rintro l' ⟨f, s1⟩ ⟨f', s1'⟩ hl ⟨rfl, hv, ⟨rfl, hr⟩, -⟩
    show SRel φ real top _ l' (if f < s1.fsim (Fin.last n) then _ else _) (if φ f < φ (s1.fsim (Fin.last n)) then _ else _)
    simp only [hO.lt _ _ hv.or (hr _).or]
    split
    · exact .ret _ _ _ ⟨rfl, nmReplace_rel hr _ hv⟩
    · exact (nmShrink_rel co _ l' s1 hr).bind fun l'' a b _ hab => .ret _ _ _ ⟨rfl, hab⟩
  · exact .ret _ _ _ ⟨rfl, rfl, h⟩

theorem nmContract_rel (hO : SameOrder φ real top) (co : NmCoef K) (xbar xr : Vec K n) {fxr : F} (hf : Val real top l fxr)
    {s : NmState K F n} (h : ∀ i, Val real top l (s.fsim i)) :
    SRel (K := K) φ real top (NmRelB φ real top) l (nmContract co xbar xr fxr s) (nmContract co xbar xr (φ fxr) (s.rescale φ)) := by
  unfold nmContract
  rcases n with _ | n
  · exact .fail _ _ _ _
  · show SRel φ real top _ l (if fxr < s.fsim (Fin.last n).castSucc then _ else _) (if φ fxr < φ (s.fsim (Fin.last n).castSucc) then _ else _)
    simp only [hO.lt _ _ hf.or (h _).or]
    by_cases h1 : fxr < s.fsim (Fin.last n).castSucc
    · rw [if_pos h1, if_pos h1]
      exact .ret _ _ _ ⟨rfl, nmReplace_rel h _ hf⟩
    · rw [if_neg h1, if_neg h1]
      show SRel φ real top _ l (if fxr < s.fsim (Fin.last (n + 1)) then _ else _) (if φ fxr < φ (s.fsim (Fin.last (n + 1))) then _ else _)
      simp only [hO.lt _ _ hf.or (h _).or]
      split
      · exact nmOutside_rel hO co xbar hf h
      · exact nmInside_rel hO co xbar h

theorem nmMove_rel (hO : SameOrder φ real top) (co : NmCoef K) {s : NmState K F n} (h : ∀ i, Val real top l (s.fsim i)) :
    SRel (K := K) φ real top (NmRelB φ real top) l (nmMove co s) (nmMove co (s.rescale φ)) := by
  refine (nmEval_rel _ h).bind ?_
  rintro l' ⟨f, s1⟩ ⟨f', s1'⟩ hl ⟨rfl, hv, ⟨rfl, hr⟩, -⟩
  show SRel φ real top _ l' (if f < s1.fsim 0 then _ else _) (if φ f < φ (s1.fsim 0) then _ else _)
  simp only [hO.lt _ _ hv.or (hr _).or]
  split
  · exact nmExpand_rel hO co _ _ hv hr
  · exact nmContract_rel hO co _ _ hv hr

/-- the sorting function sees only the order -/
def SortsSame (φ : F → F) (real : F → Prop) (top : F) {m : ℕ} (argsort : (Fin m → F) → Equiv.Perm (Fin m)) : Prop :=
  ∀ f, (∀ i, real (f i) ∨ f i = top) → argsort (φ ∘ f) = argsort f

variable {c : NmCfg K F n}

theorem nmSort_rel (hc : SortsSame φ real top c.argsort) {s : NmState K F n} (h : ∀ i, Val real top l (s.fsim i)) :
    NmRel φ real top l (nmSort c s) (nmSort c (s.rescale φ)) := by
  refine ⟨?_, fun i => h _⟩
  unfold nmSort NmState.rescale
  simp only [hc _ fun i => (h i).or, Function.comp_assoc]

theorem ofFn_comp (f : Fin (n + 1) → F) : List.ofFn (φ ∘ f) = (List.ofFn f).map φ := List.ofFn_comp' f φ

theorem nmFinish_rel {s : NmState K F n} (h : ∀ i, Val real top l (s.fsim i)) :
    SRel φ real top (NmRel φ real top) l (nmFinish s) (nmFinish (s.rescale φ)) := by
  refine .finishNM l (simplexSize s.sim) (List.ofFn s.fsim) (List.ofFn (φ ∘ s.fsim)) s.calls _ _ _ _ (fun hl => ⟨?_, ?_⟩) rfl rfl rfl rfl ?_
  · intro v hv
    obtain ⟨i, rfl⟩ := (List.mem_ofFn' _ _).1 hv
    rcases h i with h | ⟨h, _⟩
    · exact h
    · rw [hl] at h; cases h
  · exact ofFn_comp _
  · exact .ret _ _ _ ⟨rfl, h⟩

theorem nmLoop_rel (hO : SameOrder φ real top) (hc : SortsSame φ real top c.argsort) (hd : c.driftMinutes ≤ 0) (co : NmCoef K) (fuel : ℕ) :
    ∀ (l : Bool) (s : NmState K F n), (∀ i, Val real top l (s.fsim i)) →
    SRel φ real top (NmRel φ real top) l (nmLoop c co fuel s) (nmLoop c co fuel (s.rescale φ)) := by
  induction fuel with
  | zero => exact fun l s h => .fail _ _ _ _
  | succ fuel ih =>
    intro l s h
    refine nmConv_rel fun b => ?_
    rcases b with _ | _
    · refine (nmMove_rel hO co h).bind ?_
      rintro l' ⟨b, s1⟩ ⟨b', s1'⟩ hl ⟨hb, rfl, hr⟩
      obtain rfl : b' = b := hb
      rcases b' with _ | _
      · obtain ⟨e, hr'⟩ := nmSort_rel (φ := φ) hc hr
        have e' : ∀ s : NmState K F n, nmDrift c s = .ret s := fun s => by
          unfold nmDrift; rw [if_neg (not_lt.2 hd)]; rfl
        show SRel φ real top _ l' (Strat.bind (nmDrift c (nmSort c s1)) _) (Strat.bind (nmDrift c (nmSort c (s1.rescale φ))) _)
        rw [e', e', e]
        refine (nmFinish_rel hr').bind ?_
        rintro l'' s2 s2' hl' ⟨rfl, h2⟩
        exact ih l'' s2 h2
      · exact .ret _ _ _ ⟨rfl, hr⟩
    · exact .ret _ _ _ ⟨rfl, h⟩

/-- Nelder-Mead without drift compensation takes the same steps on both scales. -/
theorem nelderMead_rel (hO : SameOrder φ real top) (hc : SortsSame φ real top c.argsort) (hd : c.driftMinutes ≤ 0) (fuel : ℕ) :
    DsmRel φ real top (nelderMead c fuel) (nelderMead c fuel) := by
  intro i x sim sg
  unfold nelderMead
  split
  · unfold nmRun
    refine .setConv _ _ _ _ (.now _ _ _ fun _ => .now _ _ _ fun t => ?_)
    refine (nmInit_rel _ true _ _ rfl fun i hi => absurd (List.mem_finRange i) hi).bind ?_
    rintro l' s s' _ ⟨rfl, h⟩
    obtain ⟨e, hr⟩ := nmSort_rel (φ := φ) hc h
    have e' : ({ nmSort c (s.rescale φ) with iterations := 1 } : NmState K F n) =
        ({ nmSort c s with iterations := 1 } : NmState K F n).rescale φ := by
      rw [e]; rfl
    show SRel φ real top _ l' (Strat.bind (nmLoop c _ fuel _) _) (Strat.bind (nmLoop c _ fuel { nmSort c (s.rescale φ) with iterations := 1 }) _)
    rw [e']
    refine (nmLoop_rel hO hc hd _ fuel l' { nmSort c s with iterations := 1 } hr).bind ?_
    rintro l'' s2 s2' _ ⟨rfl, h2⟩
    exact .reason _ _ _ fun r => .ret _ _ _ rfl
  · exact .fail _ _ _ _

/-! ### CMA-ES -/

variable {L : ℕ} {lib : CmaLib K F}

/-- the CMA-ES search on the other scale -/
def CmaState.rescale (φ : F → F) (s : CmaState K F n L) : CmaState K F n L := { s with fsim := φ ∘ s.fsim }

/-- both searches are in the same situation -/
def CmaRel (φ : F → F) (real : F → Prop) (top : F) (l : Bool) (s s' : CmaState K F n L) : Prop :=
  s' = s.rescale φ ∧ ∀ i, Val real top l (s.fsim i)

theorem cmaSample_rel (ks : List (Fin L)) : ∀ (l : Bool) (s : CmaState K F n L) (f : Fin L → F),
    (∀ i, i ∉ ks → f i = φ (s.fsim i) ∧ Val real top l (s.fsim i)) →
    SRel (K := K) φ real top (CmaRel φ real top) l (cmaSample lib ks s) (cmaSample lib ks { s with fsim := f }) := by
  induction ks with
  | nil =>
    intro l s f h2
    refine .ret _ _ _ ⟨?_, fun i => (h2 i (by simp)).2⟩
    unfold CmaState.rescale
    congr 1
    funext i
    exact (h2 i (by simp)).1
  | cons k ks ih =>
    intro l s f h2
    refine .eval _ _ _ _ _ fun l' v hl hv => ?_
    refine ih l' { s with arx := _, fsim := Function.update s.fsim k v, counteval := _, calls := _ } (Function.update f k (φ v)) fun i hi => ?_
    show (Function.update f k (φ v) i) = φ (Function.update s.fsim k v i) ∧ Val real top l' (Function.update s.fsim k v i)
    rw [Function.update_apply, Function.update_apply]
    by_cases hk : i = k
    · simp only [hk, if_true]
      exact ⟨trivial, hv⟩
    · simp only [hk, if_false]
      have := h2 i (by simp [hk, hi])
      exact ⟨this.1, this.2.mono hl⟩

theorem cmaSort_rel (hc : SortsSame φ real top (lib.argsort (l := L))) {s : CmaState K F n L} (h : ∀ i, Val real top l (s.fsim i)) :
    CmaRel φ real top l (cmaSort lib s) (cmaSort lib (s.rescale φ)) := by
  refine ⟨?_, fun i => h _⟩
  unfold cmaSort CmaState.rescale
  simp only [hc _ fun i => (h i).or, Function.comp_assoc]

theorem cmaUpdate_rescale (s : CmaState K F n L) : cmaUpdate lib (s.rescale φ) = (cmaUpdate lib s).rescale φ := by
  unfold cmaUpdate CmaState.rescale
  dsimp only
  split <;> rfl

theorem cmaUpdate_fsim (s : CmaState K F n L) : (cmaUpdate lib s).fsim = s.fsim := by
  unfold cmaUpdate
  dsimp only
  split <;> rfl

theorem cmaFinish_rel {s : CmaState K F n L} (h : ∀ i, Val real top l (s.fsim i)) {α β : Type} {Q : Bool → α → β → Prop}
    {f : Unit → Strat K (Vec K n) F α} {f' : Unit → Strat K (Vec K n) F β} (hf : SRel φ real top Q l (f ()) (f' ())) :
    SRel φ real top Q l (Strat.bind (cmaFinish s) f) (Strat.bind (cmaFinish (s.rescale φ)) f') := by
  refine .finishCMA l (List.ofFn s.fsim) (List.ofFn (φ ∘ s.fsim)) s.calls _ _ f f' (fun hl => ⟨?_, ?_⟩) rfl rfl rfl rfl hf
  · intro v hv
    obtain ⟨i, rfl⟩ := (List.mem_ofFn' _ _).1 hv
    rcases h i with h | ⟨h, _⟩
    · exact h
    · rw [hl] at h; cases h
  · exact List.ofFn_comp' s.fsim φ

theorem cmaLoop_rel (hc : SortsSame φ real top (lib.argsort (l := L))) (fuel : ℕ) :
    ∀ (l : Bool) (s : CmaState K F n L) (f : Fin L → F),
    SRel φ real top (fun _ _ _ => True) l (cmaLoop lib fuel s) (cmaLoop lib fuel { s with fsim := f }) := by
  induction fuel with
  | zero => exact fun l s f => .fail _ _ _ _
  | succ fuel ih =>
    intro l s f
    refine .readConv _ _ _ fun b => ?_
    rcases b with _ | _
    · refine (cmaSample_rel (φ := φ) (real := real) (top := top) (lib := lib) (List.finRange L) l s f
        fun i hi => absurd (List.mem_finRange i) hi).bind ?_
      rintro l' s1 s1' _ ⟨rfl, hr⟩
      obtain ⟨e, hr'⟩ := cmaSort_rel (φ := φ) hc hr
      show SRel φ real top _ l' (Strat.bind (cmaFinish (cmaUpdate lib (cmaSort lib s1))) _)
        (Strat.bind (cmaFinish (cmaUpdate lib (cmaSort lib (s1.rescale φ)))) _)
      rw [e, cmaUpdate_rescale]
      exact cmaFinish_rel (by rw [cmaUpdate_fsim]; exact hr') (ih _ _ _)
    · exact .ret _ _ _ trivial

/-- CMA-ES takes the same steps on both scales. -/
theorem cmaes_rel [FloorRing K] (hc : ∀ L, SortsSame φ real top (lib.argsort (l := L))) (population : Option K) (fuel : ℕ) :
    DsmRel (V := Vec K n) φ real top (cmaes lib population fuel) (cmaes lib population fuel) := by
  intro i x sim sg
  unfold cmaes
  split
  · exact .setConv _ _ _ _ (.fail _ _ _ _)
  · split
    · refine .setConv _ _ _ _ ?_
      refine (cmaLoop_rel (lib := lib.inSuperIteration i) (hc _) fuel true _ _).bind ?_
      rintro l'' s2 s2' _ -
      exact .reason _ _ _ fun r => .ret _ _ _ rfl
    · split
      · exact .setConv _ _ _ _ (.fail _ _ _ _)
      · exact .setConv _ _ _ _ (.fail _ _ _ _)

end
end QuOCS

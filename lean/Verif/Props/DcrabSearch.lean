/-
Property C112: whole dCRAB optimizations with the search methods of the library.
-/
import Verif.Spec.DcrabSearch
import Verif.Props.Dcrab
import Verif.Props.NmReference
import Verif.Props.CmaReference
import Verif.Props.LinearAlgebra

set_option linter.unusedSectionVars false
set_option linter.unusedVariables false

namespace QuOCS

/-! ### Parameters -/

section
variable {M : MathFns ℝ} {pd : List (PulseDict ℝ)} {td : List (TimeDict ℝ)} {rd : List (ParamDict ℝ)} {T : String → ℝ}

theorem declared_number (hpd : ∀ d ∈ pd, DcrabPulse d) : pd.map (·.declared) = pd.map coefficientNumber := by
  apply List.map_congr_left
  intro d hd
  rw [(hpd d hd).number]; rfl

theorem qchain_get {k : ℕ} {ps : List (Param ℝ)} (h : QChain k ps) {i : ℕ} {p : Param ℝ} (hp : ps[i]? = some p) : p.ctrlList = [k + i] := by
  induction ps generalizing k i with
  | nil => simp at hp
  | cons q ps ih =>
    cases i with
    | zero => cases hp; exact h.1
    | succ i =>
      rw [List.getElem?_cons_succ] at hp
      rw [ih h.2.2 hp]
      congr 1; omega

/-- the slot of a parameter -/
theorem Ready.slot (hpd : ∀ d ∈ pd, DcrabPulse d) {c : Controls ℝ} (h : Ready M pd td rd c) {i : ℕ} {p : Param ℝ} (hp : c.params[i]? = some p) :
    p.ctrlList = [(pd.map coefficientNumber).sum + i] := by
  have hi := CInv.of_reach h.reach
  have e : c.pulses.map (·.nParams) = pd.map coefficientNumber := by
    rw [← declared_number hpd]
    exact forall2_map_eq hi.reach (fun d p hp => hp.w_length.2.1)
  rw [qchain_get hi.qchain hp, e]

/-- setting the parameters -/
theorem Ready.values (hpd : ∀ d ∈ pd, DcrabPulse d) {c : Controls ℝ} (h : Ready M pd td rd c) {x : List ℝ} {qs : List (Param ℝ)}
    (hq : List.Forall₂ (fun p q => ∃ v, gather x p.ctrlList = .ok v ∧ p.setParameter v = .ok q) c.params qs) :
    ParameterValues pd rd x (qs.map (·.value)) := by
  have hi := CInv.of_reach h.reach
  refine ⟨by rw [List.length_map, ← hq.length_eq, hi.params.length_eq], fun i d hd => ?_⟩
  obtain ⟨p, hp, hP⟩ := forall2_left hi.params hd
  obtain ⟨q, hq', v, hv, hs⟩ := forall2_left hq hp
  rw [h.slot hpd hp] at hv
  obtain ⟨h1, h2⟩ := gather_slice (k := (pd.map coefficientNumber).sum + i) (m := 1) hv
  obtain ⟨y, rfl⟩ := List.length_eq_one_iff.1 h2
  refine ⟨y, ?_, ?_⟩
  · have := congrArg (fun l : List ℝ => l[0]?) h1
    simpa [List.getElem?_take, List.getElem?_drop] using this.symm
  · unfold Param.setParameter at hs
    obtain ⟨z, hz, hs⟩ := py_bind_ok.1 hs
    rw [py_pure_ok] at hs
    rw [getIdx_ok] at hz
    cases hz
    rw [List.getElem?_map, hq', ← hs]
    unfold Param.checkLimits
    rw [hP.2.1, hP.2.2.1]; rfl

theorem Ready.shows_parameters (hpd : ∀ d ∈ pd, DcrabPulse d) {c c' : Controls ℝ} (h : Ready M pd td rd c) {x : List ℝ} {o : ControlsOut ℝ}
    (hg : c.getControls M x = .ok (c', o)) : ParameterValues pd rd x o.parameters := by
  unfold Controls.getControls at hg
  obtain ⟨ts, -, hg⟩ := py_bind_ok.1 hg
  obtain ⟨ps, -, hg⟩ := py_bind_ok.1 hg
  obtain ⟨prs, h3, hg⟩ := py_bind_ok.1 hg
  rw [py_pure_ok] at hg
  cases hg
  rw [mapM_ok] at h3
  have hv : prs.map (·.2) = (prs.map (·.1)).map (·.value) := by
    rw [List.map_map]
    apply List.map_congr_left
    intro a ha
    obtain ⟨p, -, hp⟩ := forall2_right_mem h3 ha
    obtain ⟨v, -, hp⟩ := py_bind_ok.1 hp
    unfold Param.getParameter at hp
    obtain ⟨q, -, hp⟩ := py_bind_ok.1 hp
    rw [py_pure_ok] at hp
    rw [← hp]; rfl
  show ParameterValues pd rd x (prs.map (·.2))
  rw [hv]
  refine h.values hpd (List.forall₂_map_right_iff.2 (h3.imp fun p a hp => ?_))
  obtain ⟨v, hv, hp⟩ := py_bind_ok.1 hp
  unfold Param.getParameter at hp
  obtain ⟨q, hq, hp⟩ := py_bind_ok.1 hp
  rw [py_pure_ok] at hp
  exact ⟨v, hv, by rw [← hp]; exact hq⟩

theorem Ready.next_parameters (hpd : ∀ d ∈ pd, DcrabPulse d) {c c' : Controls ℝ} (h : Ready M pd td rd c) {x : List ℝ}
    (hg : c.updateBase M x = .ok c') : ParameterValues pd rd x (c'.params.map (·.value)) := by
  unfold Controls.updateBase at hg
  obtain ⟨ts, -, hg⟩ := py_bind_ok.1 hg
  obtain ⟨ps, -, hg⟩ := py_bind_ok.1 hg
  obtain ⟨prs, h3, hg⟩ := py_bind_ok.1 hg
  rw [py_pure_ok] at hg
  cases hg
  rw [mapM_ok] at h3
  exact h.values hpd (h3.imp fun p a hp => py_bind_ok.1 hp)

theorem select_params {c c' : Controls ℝ} {r : ℕ → List ℝ} (h : CInv M pd td rd c) (hs : c.selectBasis r = .ok c') : c'.params = c.params := by
  unfold Controls.selectBasis at hs
  generalize List.range c.pulses.length = l at hs
  induction l generalizing c with
  | nil => rw [List.foldlM_nil, py_pure_ok] at hs; rw [hs]
  | cons a l ih =>
    rw [List.foldlM_cons] at hs
    obtain ⟨c1, h1, hs⟩ := py_bind_ok.1 hs
    rw [ih (h.selectAt h1) hs]
    unfold Controls.selectBasisAt at h1
    split at h1
    · cases h1; rfl
    · rename_i p hp
      split at h1
      · obtain ⟨p', hp', h1⟩ := py_bind_ok.1 h1
        rw [py_pure_ok] at h1
        have hcI : CInv M pd td rd { c with pulses := c.pulses.set a p' } := by
          refine ⟨forall2_set h.reach a hp (fun d hd => .draw hd hp'), ?_, ?_, h.params, h.fixed⟩
          · exact PChain_congr (map_set_same hp (Pulse.drawSuper_slot hp')) h.pchain
          · have := nParams_of_slotData (map_set_same hp (Pulse.drawSuper_slot hp'))
            simp only [this]
            exact h.qchain
        rw [Controls.reindex_id hcI] at h1
        rw [← h1]
      · cases h1; rfl

/-- what the search starts with -/
theorem Ready.starts (hpd : ∀ d ∈ pd, DcrabPulse d) {c : Controls ℝ} (h : Ready M pd td rd c) {v : List ℝ} (hm : c.mean = .ok v) :
    StartsAt pd (c.params.map (·.value)) v := by
  rw [C21_start_point h.reach] at hm
  cases hm
  unfold StartsAt
  rw [declared_number hpd]; rfl

theorem Ready.sizes (hM : M.Standard) (hpd : ∀ d ∈ pd, DcrabPulse d) (hT : DurationsAre td T) {c : Controls ℝ} (h : Ready M pd td rd c)
    {v : List ℝ} (hm : c.sigma = .ok v) : StartSizes pd rd v := by
  rw [C21_start_sizes_partial h.reach (fun t ht => (hT t ht).1)] at hm
  cases hm
  unfold StartSizes
  congr 2
  apply List.map_congr_left
  intro d hd
  have hn : d.declared = coefficientNumber d := by rw [(hpd d hd).number]; rfl
  rw [hn]
  congr 1
  unfold PulseDict.startSize coefficientSize
  rw [hM.sqrt2]
  rcases (hpd d hd).basis with ⟨n, h⟩ | ⟨n, h⟩ | ⟨n, m, h⟩ | ⟨n, o, s, h⟩ | h <;> rw [h]

end

/-- base pulses and parameter values of a new object -/
theorem mkControls_start {M : MathFns ℝ} {pd : List (PulseDict ℝ)} {td : List (TimeDict ℝ)} {rd : List (ParamDict ℝ)} {o : Controls ℝ}
    (ho : mkControls M pd td rd = .ok o) : o.pulses.map (·.basePulse) = (pd.map fun d => List.replicate d.binsNumber 0) ∧
      o.params.map (·.value) = rd.map (·.initialValue) := by
  unfold mkControls at ho
  obtain ⟨⟨ps, mi⟩, k1, ho⟩ := py_bind_ok.1 ho
  obtain ⟨ts, k2, ho⟩ := py_bind_ok.1 ho
  rw [py_pure_ok] at ho
  subst ho
  refine ⟨forall2_map_eq (mkPulses_each k1) ?_, ?_⟩
  · rintro d p ⟨i, hp⟩
    unfold mkPulse at hp
    simp only at hp
    split at hp
    · cases hp
    · cases hp; rfl
  · obtain ⟨i1, i2, i3⟩ := mkPulses_inv (k := 0) k1
    simp only [Nat.cast_zero, zero_add] at i3
    subst i3
    exact (mkParams_inv (K := ℝ) (k := (ps.map (·.nParams)).sum) rd).2.2

/-! ### Runs -/

section
variable {F : Type}
variable [Add F] [Sub F] [Mul F] [Div F] [Neg F] [Zero F] [One F] [NatCast F] [LE F] [LT F] [DecidableLE F]
  [DecidableLT F] [FloatOrder F]
variable {M : MathFns ℝ} {pd : List (PulseDict ℝ)} {td : List (TimeDict ℝ)} {rd : List (ParamDict ℝ)} {T : String → ℝ}
variable {sqrt : ℝ → ℝ} {rnd : ℕ → ℕ → List ℝ} {draws : ℕ → Vec ℝ (searchDim pd rd)}
variable {cfg : AlgCfg ℝ F} {env : Env (Vec ℝ (searchDim pd rd)) (ControlsOut ℝ) F}

/-- the run for any description of the searches -/
theorem dcrab_run (hM : M.Standard) (hpd : ∀ d ∈ pd, DcrabPulse d) (hu : Usable pd td rd) (hT : DurationsAre td T)
    (hr : ∀ k, EnoughRandom pd (rnd k)) (hk : cfg.kind = .dcrab) (hre : cfg.reEval = none) (hdr : cfg.driftAfterSI = false)
    (hmax : ¬ FloatOrder.IsNaN cfg.fomMax) {dsm : Dsm ℝ (Vec ℝ (searchDim pd rd)) F} (hd : LibrarySearch dsm) {o : Controls ℝ}
    (ho : mkControls M pd td rd = .ok o)
    {Search : ℕ → Vec ℝ (searchDim pd rd) → Vec ℝ (searchDim pd rd) → List (Call (Vec ℝ (searchDim pd rd)) (ControlsOut ℝ) F) → Prop}
    (hS : ∀ k x0 sizes sim calls, StartSizes pd rd (List.ofFn sizes) → simplexCreation sqrt x0 sizes (draws k) = .ok sim →
      (dsm k x0 sim sizes).Made (StopLaws cfg.sc.maxEval) (dirMul cfg.maximize) calls → Search k x0 sizes calls) :
    DcrabRun cfg pd rd T rnd Search cfg.maxSI 1 (pd.map fun d => List.replicate d.binsNumber 0) (rd.map (·.initialValue)) []
      (execute cfg env (systemOps .dcrab M sqrt rnd draws) dsm o).2.log := by
  obtain ⟨o', h1, h2⟩ := mkControls_exists (M := M) hu
  obtain rfl : o' = o := by rw [ho] at h1; cases h1; rfl
  have hK := system_kept (M := M) (sqrt := sqrt) (draws := draws) hu hr
  have hF := system_faultless (M := M) (kind := .dcrab) hu (by simp) sqrt hr draws
  have hV : KeepsView (systemOps .dcrab M sqrt rnd draws) (Ready M pd td rd) dcrabView :=
    ⟨fun o x o' c h hg => ⟨hK.get o x o' c h hg, (h.shows hM hpd hu hT (system_get hg)).1⟩,
      fun k o o' h hg => hK.select o k o' h hg, fun o x o' h hg => hK.base o x o' h hg⟩
  have hst := execute_stages (env := env) hV hk hre hmax dsm (hd.noDrift hdr)
    (searches_made (by rw [hk]; decide) hre dsm (hd.noDrift hdr)) h2
  have hbase := mkControls_start ho
  rw [← hbase.1, ← hbase.2]
  have shows : ∀ {o1 : Controls ℝ} {c : Call (Vec ℝ (searchDim pd rd)) (ControlsOut ℝ) F},
      BuiltBy (systemOps .dcrab M sqrt rnd draws) (fun o' => Ready M pd td rd o' ∧ dcrabView o' = dcrabView o1) c.vec c.ctl →
      CallShows pd T (o1.pulses.map (·.w)) (o1.pulses.map (·.basePulse)) (List.ofFn c.vec) c.ctl ∧
        ParameterValues pd rd (List.ofFn c.vec) c.ctl.parameters := by
    rintro o1 c ⟨a, b, ⟨ha, hv⟩, hg⟩
    rw [← (dcrabView_split hv).1, ← (dcrabView_split hv).2]
    exact ⟨(ha.shows hM hpd hu hT (system_get hg)).2, ha.shows_parameters hpd (system_get hg)⟩
  have search : ∀ {o1 : Controls ℝ} {k : ℕ} {calls}, Ready M pd td rd o1 →
      MadeBy cfg (systemOps .dcrab M sqrt rnd draws) dsm k o1 calls → ∃ x0 sizes, (systemOps .dcrab M sqrt rnd draws).mean o1 = .ok x0 ∧
        StartsAt pd (o1.params.map (·.value)) (List.ofFn x0) ∧ StartSizes pd rd (List.ofFn sizes) ∧ Search k x0 sizes calls := by
    intro o1 k calls hR hq
    obtain ⟨x0, e1⟩ := hF.mean o1 hR
    obtain ⟨sg, e2⟩ := hF.sigma o1 hR
    obtain ⟨sim, e3, -⟩ := hF.simplex k x0 sg
    obtain ⟨l, hl, hv⟩ := py_bind_ok.1 (show (do vecOfList _ (← o1.mean)) = .ok x0 from e1)
    obtain ⟨l', hl', hv'⟩ := py_bind_ok.1 (show (do vecOfList _ (← o1.sigma)) = .ok sg from e2)
    have hsz : StartSizes pd rd (List.ofFn sg) := by rw [vecOfList_ofFn hv']; exact hR.sizes hM hpd hT hl'
    refine ⟨x0, sg, e1, ?_, hsz, hS k x0 sg sim calls hsz e3 (hq _ _ _ e1 e2 e3)⟩
    rw [vecOfList_ofFn hv]
    exact hR.starts hpd hl
  generalize (execute cfg env (systemOps .dcrab M sqrt rnd draws) dsm o').2.log = log at hst
  generalize ([] : List (Call (Vec ℝ (searchDim pd rd)) (ControlsOut ℝ) F)) = before at hst
  generalize cfg.maxSI = m at hst
  generalize 1 = k at hst
  clear ho h1 hbase
  induction hst with
  | stop => exact .stop _ _ _ _ _
  | last hs hb hq =>
    obtain ⟨k1, k2⟩ := h2.drawn hpd hs
    have r1 := hV.select _ _ _ h2 hs
    obtain ⟨x0, sg, -, a1, a2, a3⟩ := search r1 hq
    rw [select_params (CInv.of_reach h2.reach) hs] at a1
    refine .last _ x0 sg k1 a1 a2 a3 fun c hc => ?_
    rw [← k2]
    exact shows (hb c hc)
  | @next n k o0 before o1 calls x0 x oo o3 rest hs hb hq hm hkept ho2 hup hrest ih =>
    obtain ⟨k1, k2⟩ := h2.drawn hpd hs
    have r1 := hV.select _ _ _ h2 hs
    obtain ⟨v1, v2⟩ := dcrabView_split ho2.2
    obtain ⟨x0', sg, hm', a1, a2, a3⟩ := search r1 hq
    rw [select_params (CInv.of_reach h2.reach) hs] at a1
    obtain rfl : x0' = x0 := by rw [hm] at hm'; cases hm'; rfl
    have hn := ho2.1.next hM hpd hu hT (show oo.updateBase M (List.ofFn x) = .ok o3 from hup)
    rw [v1, v2, k2] at hn
    refine .next _ x0' sg x _ _ k1 a1 a2 a3 (fun c hc => ?_) hkept hn
      (ho2.1.next_parameters hpd (show oo.updateBase M (List.ofFn x) = .ok o3 from hup)) (ih (hV.base _ _ _ ho2.1 hup))
    rw [← k2]
    exact shows (hb c hc)

end

section
variable {F : Type} [Field F] [LinearOrder F] [IsStrictOrderedRing F]
variable {M : MathFns ℝ} {pd : List (PulseDict ℝ)} {td : List (TimeDict ℝ)} {rd : List (ParamDict ℝ)} {T : String → ℝ}
variable {sqrt : ℝ → ℝ} {rnd : ℕ → ℕ → List ℝ} {draws : ℕ → Vec ℝ (searchDim pd rd)}
variable {cfg : AlgCfg ℝ F} {env : Env (Vec ℝ (searchDim pd rd)) (ControlsOut ℝ) F}

theorem Strat.Made.eachCall {C : Type} {n : ℕ} {st : Strat ℝ (Vec ℝ n) F (DsmResult (Vec ℝ n) F)} {m : ℤ} {calls : List (Call (Vec ℝ n) C F)}
    (h : st.Made (StopLaws m) (dirMul cfg.maximize) calls) {next : List (Vec ℝ n × F) → Vec ℝ n → Prop}
    (hn : ∀ evs x it f m', Plays st (evs ++ [⟨.eval x it, f⟩]) m' → StopLaws m evs → next (evals evs) x) : EachCall cfg next calls := by
  intro before c after hl
  obtain ⟨-, evs, it, f, m', h1, h2, h3⟩ := h.point (fun pre e he => he.prefix) hl
  exact ⟨evals evs, h1, hn _ _ _ _ _ h3 h2⟩

theorem stopLaws_eval {n : ℕ} {m : ℤ} {evs : List (Ev ℝ (Vec ℝ n) F)} (h : StopLaws m evs) (x : Vec ℝ n) (it : ℕ) (f : F) :
    StopLaws m (evs ++ [⟨.eval x it, f⟩]) := by
  intro pre t mid r post he ht hb
  rcases List.eq_nil_or_concat post with rfl | ⟨post', e, rfl⟩
  · have he' : evs ++ [⟨.eval x it, f⟩] = (pre ++ t :: mid) ++ [⟨.readConv, r⟩] := he
    have := (List.append_inj' he' rfl).2
    cases this
  · refine h pre t mid r post' ?_ ht hb
    rw [List.concat_eq_append] at he
    have : evs ++ [⟨.eval x it, f⟩] = (pre ++ t :: mid ++ ⟨.readConv, r⟩ :: post') ++ [e] := by rw [he]; simp
    exact (List.append_inj' this rfl).1

theorem nm_search {C : Type} {n k : ℕ} {c : NmCfg ℝ F n} (hc : c.driftMinutes = 0) (ha : IsArgsort c.argsort) {r : Vec ℝ n}
    (hreg : RegularDraw r) {fuel : ℕ} {x0 sizes : Vec ℝ n} {sim : List (Vec ℝ n)} {m : ℤ} {calls : List (Call (Vec ℝ n) C F)}
    (hsim : simplexCreation Real.sqrt x0 sizes r = .ok sim)
    (hmade : (nelderMead c fuel k x0 sim sizes).Made (StopLaws m) (dirMul cfg.maximize) calls) :
    NelderMeadSearch cfg (if c.adaptive then NmRef.adaptive n else NmRef.usual) x0 sizes calls := by
  have hn : n ≠ 0 := by
    intro h0
    unfold simplexCreation at hsim
    rw [if_pos h0] at hsim; cases hsim
  obtain ⟨sim', Q, e1, e2, e3, e4, e5⟩ := C43_start_simplex (mean := x0) (sigma := sizes) hn hreg
  obtain rfl : sim' = sim := by rw [hsim] at e1; cases e1; rfl
  refine ⟨fun i => sim'[i], ?_, ⟨Q, e4, fun i j => ?_⟩, ?_⟩
  · exact (List.getElem?_eq_some_iff.1 e3).2
  · have := (List.getElem?_eq_some_iff.1 (e5 i)).2
    exact congrFun this j
  · unfold nelderMead at hmade
    rw [dif_pos e2] at hmade
    refine hmade.eachCall fun evs x it f m' hp hl => ?_
    have := C111_follows_publication ha hp (stopLaws_eval hl x it f) rfl
    have hdn : driftNumber c = none := by unfold driftNumber; rw [hc]; rfl
    rw [hdn] at this
    exact this

/-- **C112.** A dCRAB optimization with the Nelder-Mead method, without re-evaluation and drift compensation, with a usable dictionary as
in C100: for all answers of the user's function, stop requests, clocks and random numbers (the first one of each start simplex regular), the
calls are those of super-iterations in each of which
* new frequencies are drawn,
* the published Nelder-Mead method, with the usual or the adaptive factors, searches from the coefficients zero and the current parameter
  values, with the start sizes of the dictionary, and minimizes the figures of merit of the calls (negated for a maximization),
* every call shows base pulse plus update, and the parameter values, of its search vector,
and after which the best update is included into the base pulse and the best parameter values become the current ones. The first one
starts with the base pulse zero and the initial values of the dictionary. -/
theorem C112_nelder_mead (hM : M.Standard) (hpd : ∀ d ∈ pd, DcrabPulse d) (hu : Usable pd td rd) (hT : DurationsAre td T)
    (hr : ∀ k, EnoughRandom pd (rnd k)) (hk : cfg.kind = .dcrab) (hre : cfg.reEval = none) (hdr : cfg.driftAfterSI = false)
    {c : NmCfg ℝ F (searchDim pd rd)} (hc : c.driftMinutes = 0) (ha : IsArgsort c.argsort) (hreg : ∀ k, RegularDraw (draws k)) {fuel : ℕ}
    {o : Controls ℝ} (ho : mkControls M pd td rd = .ok o) :
    DcrabRun cfg pd rd T rnd (fun _ => NelderMeadSearch cfg (if c.adaptive then NmRef.adaptive (searchDim pd rd) else NmRef.usual))
      cfg.maxSI 1 (pd.map fun d => List.replicate d.binsNumber 0) (rd.map (·.initialValue)) []
      (execute cfg env (systemOps .dcrab M Real.sqrt rnd draws) (nelderMead c fuel) o).2.log := by
  refine dcrab_run hM hpd hu hT hr hk hre hdr (fun h => h) (.inl ⟨c, fuel, hc.le, rfl⟩) ho ?_
  exact fun k x0 sizes sim calls hsz hsim hmade => nm_search hc ha (hreg k) hsim hmade

theorem cma_search {C : Type} {n k : ℕ} (hn : n ≠ 0) {lib : CmaLib ℝ F} (hl : lib.Genuine) (hpow : lib.pow = fun x y => x ^ y) (hsort : lib.Sorts)
    {x0 sizes : Vec ℝ n} (hne : ∀ i, sizes i ≠ 0) {p : Option ℝ} {L : ℕ} (h2 : 2 ≤ L)
    (hL : (L : ℤ) = match p with | some q => ⌊q⌋ | none => 4 + ⌊3 * Real.log n⌋) {fuel : ℕ} {sim : List (Vec ℝ n)} {m : ℤ}
    {calls : List (Call (Vec ℝ n) C F)} (hmade : (cmaes lib p fuel k x0 sim sizes).Made (StopLaws m) (dirMul cfg.maximize) calls) :
    CmaSearch cfg L (lib.randnIn k) x0 sizes calls := by
  have hpop : cmaPopulation lib.log n p = .ok (L : ℤ) := by
    unfold cmaPopulation
    rw [if_neg hn, hl.log, hL]
    cases p <;> rfl
  unfold cmaes at hmade
  rw [hpop] at hmade
  simp only [dif_pos (show (2 : ℤ) ≤ (L : ℤ) by exact_mod_cast h2)] at hmade
  refine hmade.eachCall fun evs x it f m' hp hst => ?_
  obtain ⟨d, h3, h4⟩ := C92_follows_publication (lib := lib.inSuperIteration k) ⟨hl.log, hl.sqrt, hl.exp, hl.eigh⟩ hpow hsort hne h2 (by omega) hp rfl
  refine ⟨d, h3, fun h => ?_, fun h => ?_⟩
  · rw [h4, if_pos h]
  · rw [h4, if_neg h]; rfl

theorem cma_start (hap : ∀ d ∈ pd, d.amplitudeVariation ≠ 0) (har : ∀ d ∈ rd, d.amplitudeVariation ≠ 0)
    {x0 sizes r : Vec ℝ (searchDim pd rd)} {sim : List (Vec ℝ (searchDim pd rd))} (hsz : StartSizes pd rd (List.ofFn sizes))
    (hsim : simplexCreation sqrt x0 sizes r = .ok sim) : searchDim pd rd ≠ 0 ∧ ∀ i, sizes i ≠ 0 := by
  have hn : searchDim pd rd ≠ 0 := by
    intro h0
    unfold simplexCreation at hsim
    rw [if_pos h0] at hsim; cases hsim
  have hne : ∀ i, sizes i ≠ 0 := by
    have hall : ∀ y ∈ List.ofFn sizes, y ≠ 0 := by
      rw [hsz]
      intro y hy
      rcases List.mem_append.1 hy with hy | hy
      · obtain ⟨l, hl, hy⟩ := List.mem_flatten.1 hy
        obtain ⟨d, hd, rfl⟩ := List.mem_map.1 hl
        rw [(List.mem_replicate.1 hy).2]
        have := hap d hd
        unfold coefficientSize
        split <;> first | exact this | exact div_ne_zero this (by positivity)
      · obtain ⟨d, hd, rfl⟩ := List.mem_map.1 hy
        exact har d hd
    exact fun i => hall _ (List.mem_ofFn.2 ⟨i, rfl⟩)
  exact ⟨hn, hne⟩

/-- **C112.** The same with CMA-ES in each super-iteration: the published CMA-ES, with the population `L` (the one of the dictionary, or the
default `4 + ⌊3 log n⌋` for `n` search variables) and new standard normal random vectors in every super-iteration. -/
theorem C112_cma_es (hM : M.Standard) (hpd : ∀ d ∈ pd, DcrabPulse d) (hu : Usable pd td rd) (hT : DurationsAre td T)
    (hr : ∀ k, EnoughRandom pd (rnd k)) (hk : cfg.kind = .dcrab) (hre : cfg.reEval = none) (hdr : cfg.driftAfterSI = false)
    (hap : ∀ d ∈ pd, d.amplitudeVariation ≠ 0) (har : ∀ d ∈ rd, d.amplitudeVariation ≠ 0)
    {lib : CmaLib ℝ F} (hl : lib.Genuine) (hpow : lib.pow = fun x y => x ^ y) (hsort : lib.Sorts) {p : Option ℝ} {L : ℕ} (h2 : 2 ≤ L)
    (hL : (L : ℤ) = match p with | some q => ⌊q⌋ | none => 4 + ⌊3 * Real.log (searchDim pd rd)⌋) {fuel : ℕ}
    {o : Controls ℝ} (ho : mkControls M pd td rd = .ok o) :
    DcrabRun cfg pd rd T rnd (fun k => CmaSearch cfg L (lib.randnIn k))
      cfg.maxSI 1 (pd.map fun d => List.replicate d.binsNumber 0) (rd.map (·.initialValue)) []
      (execute cfg env (systemOps .dcrab M sqrt rnd draws) (cmaes lib p fuel) o).2.log := by
  refine dcrab_run hM hpd hu hT hr hk hre hdr (fun h => h) (.inr ⟨lib, p, fuel, rfl⟩) ho ?_
  intro k x0 sizes sim calls hsz hsim hmade
  obtain ⟨hn, hne⟩ := cma_start hap har hsz hsim
  exact cma_search hn hl hpow hsort hne h2 hL hmade

/-- **C92.** A direct search over parameters with CMA-ES, without re-evaluation: for all answers of the user's function, stop requests,
clocks and random numbers, every call is made at the point that the published CMA-ES asks for after the points and figures of merit
(negated for a maximization) of the calls before, from the initial values and with the amplitude variations of the dictionary; the user's
function gets this point, brought into the limits. -/
theorem C92_direct_search (hu : Usable ([] : List (PulseDict ℝ)) td rd) (hf : FixedTimes td) {draws : ℕ → Vec ℝ (searchDim ([] : List (PulseDict ℝ)) rd)}
    {env : Env (Vec ℝ (searchDim ([] : List (PulseDict ℝ)) rd)) (ControlsOut ℝ) F} (hk : cfg.kind = .directSearch) (hre : cfg.reEval = none)
    (hdr : cfg.driftAfterSI = false)
    (har : ∀ d ∈ rd, d.amplitudeVariation ≠ 0) {lib : CmaLib ℝ F} (hl : lib.Genuine) (hpow : lib.pow = fun x y => x ^ y) (hsort : lib.Sorts)
    {p : Option ℝ} {L : ℕ} (h2 : 2 ≤ L) (hL : (L : ℤ) = match p with | some q => ⌊q⌋ | none => 4 + ⌊3 * Real.log rd.length⌋) {fuel : ℕ}
    {o : Controls ℝ} (ho : mkControls M [] td rd = .ok o) :
    ∃ x0 sizes, List.ofFn x0 = rd.map (·.initialValue) ∧ List.ofFn sizes = rd.map (·.amplitudeVariation) ∧
      CmaSearch cfg L (lib.randnIn 0) x0 sizes
        (execute cfg env (systemOps .directSearch M sqrt rnd draws) (cmaes lib p fuel) o).2.log ∧
      ∀ c ∈ (execute cfg env (systemOps .directSearch M sqrt rnd draws) (cmaes lib p fuel) o).2.log,
        ParameterValues [] rd (List.ofFn c.vec) c.ctl.parameters := by
  obtain ⟨o', h1, hR⟩ := mkControls_exists (M := M) hu
  obtain rfl : o' = o := by rw [ho] at h1; cases h1; rfl
  have hrn : ∀ k, EnoughRandom ([] : List (PulseDict ℝ)) (rnd k) := fun k i d hd => by simp at hd
  have hF := system_faultless (M := M) (kind := .directSearch) hu (fun _ => rfl) sqrt hrn draws
  have hex : execute cfg env (systemOps .directSearch M sqrt rnd draws) (cmaes lib p fuel) o' =
      dsmBuild cfg env (systemOps .directSearch M sqrt rnd draws) (cmaes lib p fuel) (initState cfg env o') := by
    unfold execute run
    rw [hk]
  rw [hex]
  have hnd : NoDriftRun cfg (cmaes lib p fuel : Dsm ℝ (Vec ℝ (searchDim ([] : List (PulseDict ℝ)) rd)) F) :=
    LibrarySearch.noDrift (.inr ⟨lib, p, fuel, rfl⟩) hdr
  have get : ∀ {c c' : Controls ℝ} {x : Vec ℝ (searchDim ([] : List (PulseDict ℝ)) rd)} {u : ControlsOut ℝ},
      (systemOps .directSearch M sqrt rnd draws).getControls c x = .ok (c', u) → c.getControls M (List.ofFn x) = .ok (c', u) := by
    intro c c' x u h
    have h : getControlsFor .directSearch M c (List.ofFn x) = .ok (c', u) := h
    unfold getControlsFor at h
    obtain ⟨r, h1, h⟩ := py_bind_ok.1 h
    split at h
    · cases h
    · cases h; exact h1
  obtain ⟨l, e1, e2, -⟩ := dsmBuild_stage (env := env) (ops := systemOps .directSearch M sqrt rnd draws) (J := Ready M [] td rd)
    (fun c x c' u h hg => by obtain ⟨a, b, k1, k2⟩ := hF.get c x h; rw [hg] at k1; cases k1; exact k2) (.inr hre) (cmaes lib p fuel) hnd
    (s := initState cfg env o') (.initial env o' (fun h => h)) hR
  obtain ⟨l', q1, q2⟩ := searches_made (env := env) (ops := systemOps .directSearch M sqrt rnd draws) (by rw [hk]; decide) hre (cmaes lib p fuel) hnd
    (initState cfg env o')
  rw [e1] at q1
  obtain rfl := List.append_cancel_left q1
  rw [e1]
  have hlog : (initState cfg env o').log = ([] : List (Call (Vec ℝ (searchDim ([] : List (PulseDict ℝ)) rd)) (ControlsOut ℝ) F)) := rfl
  rw [hlog, List.nil_append]
  obtain ⟨x0, m1⟩ := hF.mean o' hR
  obtain ⟨sg, m2⟩ := hF.sigma o' hR
  obtain ⟨sim, m3, -⟩ := hF.simplex 0 x0 sg
  obtain ⟨v, hv1, hv2⟩ := py_bind_ok.1 (show (do vecOfList _ (← o'.mean)) = .ok x0 from m1)
  obtain ⟨v', hv1', hv2'⟩ := py_bind_ok.1 (show (do vecOfList _ (← o'.sigma)) = .ok sg from m2)
  rw [C21_initial_start_point ho] at hv1
  rw [C21_start_sizes_partial (.create ho) hf] at hv1'
  cases hv1; cases hv1'
  have hsz := vecOfList_ofFn hv2'
  simp only [List.map_nil, List.flatten_nil, List.nil_append] at hsz
  have hdim : searchDim ([] : List (PulseDict ℝ)) rd = rd.length := by simp [searchDim]
  have hn : searchDim ([] : List (PulseDict ℝ)) rd ≠ 0 := hu.dim_pos.ne'
  refine ⟨x0, sg, by rw [vecOfList_ofFn hv2]; simp [zeros], hsz, ?_, fun c hc => ?_⟩
  · have hne : ∀ i, sg i ≠ 0 := by
      intro i
      have : sg i ∈ List.ofFn sg := List.mem_ofFn.2 ⟨i, rfl⟩
      rw [hsz] at this
      obtain ⟨d, hd, e⟩ := List.mem_map.1 this
      rw [← e]; exact har d hd
    exact cma_search hn hl hpow hsort hne h2 (by rw [hL, hdim]) (q2 x0 sg sim m1 m2 m3)
  · obtain ⟨a, b, ha, hg⟩ := e2 c hc
    exact ha.shows_parameters (by simp) (get hg)

end

/-! ### Concrete cases -/

/-- three super-iterations, minimization, real figures of merit -/
noncomputable def exDcrabCfgR (sc : ScCfg ℝ ℝ) : AlgCfg ℝ ℝ :=
  { kind := .dcrab, maxEvalTotal := 10, totalTimeLim := 10, maximize := false, userGoal := none, fomMax := (10000000000 : ℝ)
    initStd := (1 / 10 : ℝ), reEval := none, half := (1 / 2 : ℝ), tiny := (0 : ℝ), driftAfterSI := false, driftMinutes := 0
    driftAverage := 1, maxSI := 3, sc := sc }

/-- The hypotheses of C112 hold for CMA-ES with population two, all random numbers and any user's function. -/
example (randn : {n : ℕ} → ℕ → Fin n → ℝ) (env : Env (Vec ℝ (searchDim exDcrabPd exDcrabRd)) (ControlsOut ℝ) ℝ) (sc : ScCfg ℝ ℝ)
    (draws : ℕ → Vec ℝ (searchDim exDcrabPd exDcrabRd)) : ∃ o, mkControls standardFns exDcrabPd exDcrabTd exDcrabRd = .ok o ∧
    DcrabRun (exDcrabCfgR sc) exDcrabPd exDcrabRd (fun _ => 2) (fun k _ => [1 / (k + 2), 1 / (k + 3)])
      (fun _ => CmaSearch (exDcrabCfgR sc) 2 randn) 3 1 [[0, 0, 0], [0, 0, 0]] [0] []
      (execute (exDcrabCfgR sc) env
        (systemOps .dcrab standardFns Real.sqrt (fun k _ => [1 / (k + 2), 1 / (k + 3)]) draws) (cmaes (realLib randn) (some 2) 5) o).2.log := by
  obtain ⟨o, ho, _⟩ := mkControls_exists (M := standardFns) exDcrab_usable
  refine ⟨o, ho, C112_cma_es (L := 2) standardFns_standard exDcrab_pulses exDcrab_usable exDcrab_durations exDcrab_random rfl rfl rfl
    (fun d hd => ?_) (fun d hd => ?_) (realLib_genuine randn).1 rfl (realLib_genuine randn).2 le_rfl ?_ ho⟩
  · simp only [exDcrabPd, List.mem_cons, List.not_mem_nil, or_false] at hd
    rcases hd with rfl | rfl <;> simp [exBasisPulse]
  · rw [List.mem_singleton.1 hd]; norm_num
  · show ((2 : ℕ) : ℤ) = ⌊(2 : ℝ)⌋
    norm_num

/-- The hypotheses of C112 hold for the adaptive Nelder-Mead method and any user's function. -/
example (env : Env (Vec ℝ (searchDim exDcrabPd exDcrabRd)) (ControlsOut ℝ) ℝ) (sc : ScCfg ℝ ℝ) :
    ∃ o, mkControls standardFns exDcrabPd exDcrabTd exDcrabRd = .ok o ∧
    DcrabRun (exDcrabCfgR sc) exDcrabPd exDcrabRd (fun _ => 2) (fun k _ => [1 / (k + 2), 1 / (k + 3)])
      (fun _ => NelderMeadSearch (exDcrabCfgR sc) (NmRef.adaptive (searchDim exDcrabPd exDcrabRd))) 3 1 [[0, 0, 0], [0, 0, 0]] [0] []
      (execute (exDcrabCfgR sc) env
        (systemOps .dcrab standardFns Real.sqrt (fun k _ => [1 / (k + 2), 1 / (k + 3)]) (fun _ _ => 1 / 2))
        (nelderMead { adaptive := true, driftMinutes := 0, driftAverage := 1, argsort := fun f => Tuple.sort f } 5) o).2.log := by
  obtain ⟨o, ho, _⟩ := mkControls_exists (M := standardFns) exDcrab_usable
  have hreg : ∀ k : ℕ, RegularDraw ((fun _ _ => 1 / 2 : ℕ → Vec ℝ (searchDim exDcrabPd exDcrabRd)) k) := fun k i hi => by norm_num
  exact ⟨o, ho, C112_nelder_mead (F := ℝ) (env := env) (cfg := exDcrabCfgR sc)
    (c := { adaptive := true, driftMinutes := 0, driftAverage := 1, argsort := fun f => Tuple.sort f }) (fuel := 5)
    standardFns_standard exDcrab_pulses exDcrab_usable exDcrab_durations exDcrab_random rfl rfl rfl
    rfl (fun f => Tuple.monotone_sort f) hreg ho⟩

/-- The hypotheses of C92 hold for a direct search over one parameter with the default population, which is four. -/
example (randn : {n : ℕ} → ℕ → Fin n → ℝ) (env : Env (Vec ℝ (searchDim ([] : List (PulseDict ℝ)) exDcrabRd)) (ControlsOut ℝ) ℝ) (sc : ScCfg ℝ ℝ)
    (draws : ℕ → Vec ℝ (searchDim ([] : List (PulseDict ℝ)) exDcrabRd)) : ∃ o, mkControls standardFns [] exDcrabTd exDcrabRd = .ok o ∧
    ∃ x0 sizes, List.ofFn x0 = [0] ∧ List.ofFn sizes = [1] ∧
      CmaSearch { exDcrabCfgR sc with kind := .directSearch } 4 randn x0 sizes
        (execute { exDcrabCfgR sc with kind := .directSearch } env (systemOps .directSearch standardFns Real.sqrt (fun _ _ => []) draws)
          (cmaes (realLib randn) none 5) o).2.log := by
  have hu : Usable ([] : List (PulseDict ℝ)) exDcrabTd exDcrabRd :=
    ⟨.inr (by simp [exDcrabRd]), by simp, fun t ht h => by rw [List.mem_singleton.1 ht] at h; cases h⟩
  obtain ⟨o, ho, _⟩ := mkControls_exists (M := standardFns) hu
  obtain ⟨x0, sizes, h1, h2, h3, -⟩ := C92_direct_search (L := 4) (env := env) (draws := draws) (sqrt := Real.sqrt) (rnd := fun _ _ => []) (fuel := 5)
    (cfg := { exDcrabCfgR sc with kind := .directSearch }) hu (fun t ht => (exDcrab_durations t ht).1) rfl rfl rfl
    (fun d hd => by rw [List.mem_singleton.1 hd]; norm_num) (realLib_genuine randn).1 rfl (realLib_genuine randn).2 (p := none) (by norm_num)
    (by simp [exDcrabRd]) ho
  exact ⟨o, ho, x0, sizes, by rw [h1]; rfl, by rw [h2]; rfl, h3⟩

end QuOCS

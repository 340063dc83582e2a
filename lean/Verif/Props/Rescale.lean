/-
C91: the search depends on the order of the figures of merit, not on their scale.
-/
import Mathlib.Tactic.Linarith
import Mathlib.Tactic.FieldSimp
import Mathlib.Tactic.Ring
import Mathlib.Algebra.Order.BigOperators.Group.List
import Mathlib.Algebra.BigOperators.Ring.List
import Verif.Lemmas.RescaleSearch
import Verif.Lemmas.LeastSquares
import Verif.Props.CMAES
import Verif.Props.ReEval
import Verif.Props.SuperIterationStart
import Mathlib.Algebra.Order.Ring.Pow
import Mathlib.Analysis.SpecialFunctions.Sqrt

set_option linter.unusedSectionVars false
set_option linter.unusedVariables false

namespace QuOCS

section
variable {F : Type} [Field F] [LinearOrder F] [IsStrictOrderedRing F]

theorem sum_map_affine (a b : F) (l : List F) : (l.map fun x => a * x + b).sum = a * l.sum + l.length * b := by
  induction l with
  | nil => simp
  | cons x l ih => simp only [List.map_cons, List.sum_cons, ih, List.length_cons]; push_cast; ring

theorem variance_affine (a b : F) (l : List F) : variance (l.map fun x => a * x + b) = a * a * variance l := by
  rcases l with _ | ⟨x, l⟩
  · simp [variance, mean]
  · generalize hl : x :: l = l'
    have h0 : (l'.length : F) ≠ 0 := by rw [← hl, List.length_cons]; exact Nat.cast_ne_zero.2 (Nat.succ_ne_zero l.length)
    have hm : mean (l'.map fun x => a * x + b) = a * mean l' + b := by
      unfold mean
      rw [sum_map_affine, List.length_map]
      field_simp
    unfold variance
    rw [hm, List.map_map]
    have e : (fun x => (x - (a * mean l' + b)) * (x - (a * mean l' + b))) ∘ (fun x => a * x + b) =
        fun x => (a * a) * ((x - mean l') * (x - mean l')) := by
      funext x; simp only [Function.comp]; ring
    rw [e]
    unfold mean
    rw [List.sum_map_mul_left, List.length_map, List.length_map, mul_div_assoc]

theorem lsSlope_affine (a b : F) (l : List F) : lsSlope (l.map fun x => a * x + b) = a * lsSlope l := by
  unfold lsSlope
  dsimp only
  rw [List.length_map, sum_map_affine, ← mul_div_assoc]
  congr 1
  have key : ∀ (xs l : List F), xs.length = l.length →
      (List.zipWith (· * ·) xs (l.map fun x => a * x + b)).sum = a * (List.zipWith (· * ·) xs l).sum + b * xs.sum := by
    intro xs
    induction xs with
    | nil => intro l _; simp
    | cons y ys ih =>
      intro l hl
      rcases l with _ | ⟨x, l⟩
      · cases hl
      · simp only [List.map_cons, List.zipWith_cons_cons, List.sum_cons, ih l (by simpa using hl)]
        ring
  rw [key _ _ (by simp)]
  ring

theorem sq_sum_nonneg (m : F) (l : List F) : 0 ≤ (l.map fun x => (x - m) * (x - m)).sum :=
  List.sum_nonneg fun y hy => by
    obtain ⟨x, _, rfl⟩ := List.mem_map.1 hy
    exact mul_self_nonneg _

theorem variance_nonneg (l : List F) : 0 ≤ variance l := by
  unfold variance mean
  exact div_nonneg (sq_sum_nonneg _ _) (Nat.cast_nonneg _)

/-- the spread is zero exactly if all values are equal -/
theorem variance_zero_iff (l : List F) : variance l ≤ 0 ↔ ∀ x ∈ l, ∀ y ∈ l, x = y := by
  rcases hl : l with _ | ⟨z, t⟩
  · simp [variance, mean]
  rw [← hl]
  have h0 : 0 < (l.length : F) := by rw [hl, List.length_cons]; exact Nat.cast_pos.2 (Nat.succ_pos t.length)
  constructor
  · intro h
    have hs : (l.map fun x => (x - mean l) * (x - mean l)).sum ≤ 0 := by
      by_contra hc
      have : 0 < variance l := by
        show 0 < (l.map fun x => (x - mean l) * (x - mean l)).sum / ((l.map fun x => (x - mean l) * (x - mean l)).length : F)
        rw [List.length_map]
        exact div_pos (not_le.1 hc) h0
      exact absurd h (not_le.2 this)
    have key : ∀ (m : F) (t : List F), (t.map fun x => (x - m) * (x - m)).sum ≤ 0 → ∀ x ∈ t, x = m := by
      intro m t
      induction t with
      | nil => simp
      | cons y t ih =>
        intro h
        rw [List.map_cons, List.sum_cons] at h
        have h1 := sq_sum_nonneg m t
        have h2 := mul_self_nonneg (y - m)
        intro x hx
        rcases List.mem_cons.1 hx with rfl | hx
        · have : (x - m) * (x - m) = 0 := by linarith
          exact sub_eq_zero.1 (mul_self_eq_zero.1 this)
        · exact ih (by linarith) x hx
    intro x hx y hy
    rw [key _ _ hs x hx, key _ _ hs y hy]
  · intro h
    have hz : ∀ x ∈ l, x = z := fun x hx => h x hx z (by rw [hl]; exact List.mem_cons_self)
    have hr : l = List.replicate l.length z := List.eq_replicate_iff.2 ⟨rfl, hz⟩
    have hm : mean l = z := by
      unfold mean
      rw [show l.sum = (List.replicate l.length z).sum by rw [← hr], List.sum_replicate, nsmul_eq_mul]
      field_simp
    unfold variance
    rw [hm]
    have : l.map (fun x => (x - z) * (x - z)) = l.map (fun _ => (0 : F)) :=
      List.map_congr_left fun x hx => by rw [hz x hx]; ring
    rw [this]
    simp [mean]

end

section
variable {K C O F : Type} [Field K] [LinearOrder K] [IsStrictOrderedRing K] [FloorRing K] {n : ℕ}
variable [Field F] [LinearOrder F] [IsStrictOrderedRing F]
variable {cfg : AlgCfg K F} {env : Env (Vec K n) C F} {ops : CtlOps O (Vec K n) C}
variable {fm : List (Call (Vec K n) C F) → C → Py (Answer F)} {ψ : F → F}

/-- `ψ`, for the internal values (which are negated for maximization, and start at `fomMax`) -/
def internalScale (cfg : AlgCfg K F) (ψ : F → F) (v : F) : F :=
  if v = cfg.fomMax then cfg.fomMax else dirMul cfg.maximize (ψ (dirMul cfg.maximize v))

/-- internal values below the initial record, on both scales -/
def Measurable' (cfg : AlgCfg K F) (ψ : F → F) (v : F) : Prop :=
  v < cfg.fomMax ∧ dirMul cfg.maximize (ψ (dirMul cfg.maximize v)) < cfg.fomMax

theorem internalScale_of {v : F} (h : Measurable' cfg ψ v) :
    internalScale cfg ψ v = dirMul cfg.maximize (ψ (dirMul cfg.maximize v)) := if_neg (ne_of_lt h.1)

theorem dir_mono (hψ : StrictMono ψ) (m : Bool) : StrictMono fun v => dirMul m (ψ (dirMul m v)) := by
  intro a b h
  cases m
  · exact hψ h
  · exact neg_lt_neg (hψ (neg_lt_neg h))

theorem sameOrder (hψ : StrictMono ψ) : SameOrder (internalScale cfg ψ) (Measurable' cfg ψ) cfg.fomMax := by
  have hm := dir_mono hψ cfg.maximize
  have htop : internalScale cfg ψ cfg.fomMax = cfg.fomMax := if_pos rfl
  have hlt : ∀ a b, (Measurable' cfg ψ a ∨ a = cfg.fomMax) → (Measurable' cfg ψ b ∨ b = cfg.fomMax) →
      (internalScale cfg ψ a < internalScale cfg ψ b ↔ a < b) := by
    rintro a b (ha | rfl) (hb | rfl)
    · rw [internalScale_of ha, internalScale_of hb]
      exact hm.lt_iff_lt
    · rw [htop, internalScale_of ha]
      exact ⟨fun _ => ha.1, fun _ => ha.2⟩
    · rw [htop, internalScale_of hb]
      exact ⟨fun h => absurd (h.trans hb.2) (lt_irrefl _), fun h => absurd (h.trans hb.1) (lt_irrefl _)⟩
    · simp
  exact ⟨hlt, fun a b ha hb => by rw [← not_lt, ← not_lt, hlt b a hb ha]⟩

theorem sortsSame (hψ : StrictMono ψ) {m : ℕ} {argsort : (Fin m → F) → Equiv.Perm (Fin m)} (h : OrderOnly argsort) :
    SortsSame (internalScale cfg ψ) (Measurable' cfg ψ) cfg.fomMax argsort :=
  fun f hf => h _ _ fun i j => (sameOrder hψ).lt _ _ (hf i) (hf j)

theorem scaledSearch_rel (hψ : StrictMono ψ) {dsm : Dsm K (Vec K n) F} (hd : ComparesOnly dsm) :
    DsmRel (internalScale cfg ψ) (Measurable' cfg ψ) cfg.fomMax dsm dsm := by
  rcases hd with ⟨c, fuel, rfl, h1, h2⟩ | ⟨lib, p, fuel, rfl, h⟩
  · exact nelderMead_rel (sameOrder hψ) (sortsSame hψ h2) h1 fuel
  · exact cmaes_rel (fun L => sortsSame hψ (h L)) p fuel

theorem scaling (hψ : StrictMono ψ) (hk : cfg.kind ≠ .grape) (hre : cfg.reEval = none) (hdr : cfg.driftAfterSI = false ∨ cfg.driftAverage = 1)
    (hg : ∀ g, cfg.userGoal = some g → BelowStart cfg g ∧ BelowStart cfg (ψ g))
    (hfm : Rescales ψ env fm) (hin : ∀ l c a f, env.getFoM l c = .ok a → a.fom = some f → BelowStart cfg f ∧ BelowStart cfg (ψ f))
    {fatol cbs : F}
    (hf : ∀ l : List F, (env.sqrt (variance (l.map fun v => dirMul cfg.maximize (ψ (dirMul cfg.maximize v)))) ≤ fatol ↔
      env.sqrt (variance l) ≤ cfg.sc.fatol))
    (hc : 1 < cfg.sc.cbsEvals → ∀ l : List F,
      (pyAbs (lsSlope (l.map fun v => dirMul cfg.maximize (ψ (dirMul cfg.maximize v))) * (cfg.sc.cbsEvals.toNat : F)) < cbs ↔
        pyAbs (lsSlope l * (cfg.sc.cbsEvals.toNat : F)) < cfg.sc.cbsChange)) :
    OtherScale cfg env (cfg.userGoal.map ψ) fatol cbs fm (internalScale cfg ψ) ψ (Measurable' cfg ψ) := by
  have hO := sameOrder (cfg := cfg) hψ
  have hb : ∀ f, BelowStart cfg f ↔ dirMul cfg.maximize f < cfg.fomMax := by
    intro f
    unfold BelowStart dirMul
    cases cfg.maximize
    · exact Iff.rfl
    · exact neg_lt
  have hmap : ∀ l : List F, (∀ v ∈ l, Measurable' cfg ψ v) → l.map (internalScale cfg ψ) =
      l.map fun v => dirMul cfg.maximize (ψ (dirMul cfg.maximize v)) :=
    fun l h => List.map_congr_left fun v hv => internalScale_of (h v hv)
  refine ⟨hk, hre, hdr.imp_right fun h => ⟨h, fun v => by simp⟩, if_pos rfl, hO.lt, hO.le, ?_, hfm, fun l c a f h1 h2 => ?_, fun f h => ?_, fun v h => ?_, fun l h => ?_,
    fun h1 l h => ?_⟩
  · rcases hu : cfg.userGoal with _ | g
    · exact .inl ⟨rfl, rfl⟩
    · refine .inr ⟨g, ψ g, rfl, rfl, fun v hv => ?_⟩
      have hgm : Measurable' cfg ψ (dirMul cfg.maximize g) := by
        obtain ⟨a, b⟩ := hg g hu
        exact ⟨(hb _).1 a, by rw [dirMul_dirMul]; exact (hb _).1 b⟩
      have := hO.le v (dirMul cfg.maximize g) hv (.inl hgm)
      rw [internalScale_of hgm, dirMul_dirMul] at this
      exact this
  · obtain ⟨a, b⟩ := hin l c a f h1 h2
    exact ⟨(hb _).1 a, by rw [dirMul_dirMul]; exact (hb _).1 b⟩
  · rw [internalScale_of h, dirMul_dirMul]
  · rw [internalScale_of h, dirMul_dirMul]
  · rw [hmap l h]; exact hf l
  · rw [hmap l h]; exact hc h1 l

/-- what `execute_rescale` says about the observable results -/
theorem sameRun_of (hψ : StrictMono ψ) {fatol cbs : F}
    (hS : OtherScale cfg env (cfg.userGoal.map ψ) fatol cbs fm (internalScale cfg ψ) ψ (Measurable' cfg ψ)) {dsm : Dsm K (Vec K n) F}
    (hd : ComparesOnly dsm) (o : O) :
    SameRun ops cfg ψ (execute cfg env ops dsm o)
      (execute (cfg.onScale (cfg.userGoal.map ψ) fatol cbs) (env.answering fm) ops dsm o) := by
  obtain ⟨h, hb⟩ := execute_rescale (ops := ops) hS (scaledSearch_rel (cfg := cfg) hψ hd) o
  rw [h]
  refine ⟨rfl, rfl, rfl, ?_, fun hok => ?_⟩
  · show (List.map _ (List.map _ _)) = _
    rw [List.map_map]; rfl
  · show dirMul cfg.maximize (internalScale cfg ψ _) = ψ (dirMul cfg.maximize _) ∨ _
    rcases hb hok with hb | hb
    · rw [internalScale_of hb, dirMul_dirMul]
      exact .inl rfl
    · refine .inr ⟨?_, ?_⟩
      · unfold finalFoM; rw [hb]
      · show dirMul cfg.maximize (internalScale cfg ψ _) = _
        rw [hb]; unfold internalScale; rw [if_pos rfl]

/-- **C91, partial.** Let `ψ` be strictly increasing, and let a second user function report `ψ` of what the first one reports. If the
tolerance `fatol` is 0 and the change-based criterion is off, the two runs make the same calls with the same controls, write the same
reports, stop for the same reasons and return the same best controls; the reported figure of merit is `ψ` of the other.
For Nelder-Mead and CMA-ES, direct search and dCRAB.
Drift compensation after a super-iteration is included if it uses a single measurement.
Missing: re-evaluation steps (where it is false, `C91_reevaluation_scale`), drift compensation that averages (false for a run that is
stopped meanwhile, `C91_drift_average_scale`) or that is done every few minutes, values at or beyond the initial record of 10^10; a NaN cannot occur in an ordered field,
and the sums in the stopping criteria are exact here. -/
theorem C91_order_decides_partial (hψ : StrictMono ψ) (hk : cfg.kind ≠ .grape) (hre : cfg.reEval = none)
    (hdr : cfg.driftAfterSI = false ∨ cfg.driftAverage = 1) (hg : ∀ g, cfg.userGoal = some g → BelowStart cfg g ∧ BelowStart cfg (ψ g))
    (hfm : Rescales ψ env fm) (hin : ∀ l c a f, env.getFoM l c = .ok a → a.fom = some f → BelowStart cfg f ∧ BelowStart cfg (ψ f))
    (hsq : ∀ v, 0 ≤ v → (env.sqrt v ≤ 0 ↔ v ≤ 0)) (hfa : cfg.sc.fatol = 0) (hcb : cfg.sc.cbsEvals ≤ 1)
    {dsm : Dsm K (Vec K n) F} (hd : ComparesOnly dsm) (o : O) :
    SameRun ops cfg ψ (execute cfg env ops dsm o)
      (execute { cfg with userGoal := cfg.userGoal.map ψ } { env with getFoM := fm } ops dsm o) := by
  have hS := scaling (fatol := cfg.sc.fatol) (cbs := cfg.sc.cbsChange) hψ hk hre hdr hg hfm hin (fun l => ?_)
    (fun h => absurd hcb (not_le.2 h))
  · exact sameRun_of hψ hS hd o
  · rw [hfa, hsq _ (variance_nonneg _), hsq _ (variance_nonneg _), variance_zero_iff, variance_zero_iff]
    have hi := (dir_mono hψ cfg.maximize).injective
    constructor
    · intro h x hx y hy
      exact hi (h _ (List.mem_map_of_mem hx) _ (List.mem_map_of_mem hy))
    · intro h x hx y hy
      obtain ⟨x', hx', rfl⟩ := List.mem_map.1 hx
      obtain ⟨y', hy', rfl⟩ := List.mem_map.1 hy
      rw [h x' hx' y' hy']

/-- **C91, partial.** A change of unit and zero point, `ψ f = a f + b` with `a > 0`: with `fatol` and `cbs_change` multiplied by `a`, and
the goal converted, the two runs make the same calls, stop for the same reasons and return the same best controls.
Missing: as above. -/
theorem C91_change_of_unit_partial {a b : F} (ha : 0 < a) (hk : cfg.kind ≠ .grape) (hre : cfg.reEval = none)
    (hdr : cfg.driftAfterSI = false ∨ cfg.driftAverage = 1)
    (hg : ∀ g, cfg.userGoal = some g → BelowStart cfg g ∧ BelowStart cfg (a * g + b))
    (hfm : Rescales (fun f => a * f + b) env fm)
    (hin : ∀ l c ans f, env.getFoM l c = .ok ans → ans.fom = some f → BelowStart cfg f ∧ BelowStart cfg (a * f + b))
    (hsq : ∀ v, 0 ≤ v → env.sqrt (a * a * v) = a * env.sqrt v)
    {dsm : Dsm K (Vec K n) F} (hd : ComparesOnly dsm) (o : O) :
    SameRun ops cfg (fun f => a * f + b) (execute cfg env ops dsm o)
      (execute { cfg with userGoal := cfg.userGoal.map (fun f => a * f + b)
                          sc := { cfg.sc with fatol := a * cfg.sc.fatol, cbsChange := a * cfg.sc.cbsChange } }
        { env with getFoM := fm } ops dsm o) := by
  have hψ : StrictMono fun f : F => a * f + b := fun x y h => by
    have := mul_lt_mul_of_pos_left h ha
    show a * x + b < a * y + b
    linarith
  have e : (fun v => dirMul cfg.maximize (a * dirMul cfg.maximize v + b)) = fun v => a * v + dirMul cfg.maximize b := by
    funext v
    unfold dirMul
    cases cfg.maximize
    · rfl
    · show -(a * -v + b) = a * v + -b
      ring
  have hS := scaling (fatol := a * cfg.sc.fatol) (cbs := a * cfg.sc.cbsChange) hψ hk hre hdr hg hfm hin (fun l => ?_) (fun _ l => ?_)
  · exact sameRun_of hψ hS hd o
  · rw [e, variance_affine, hsq _ (variance_nonneg _)]
    exact mul_le_mul_iff_right₀ ha
  · rw [e, lsSlope_affine, mul_assoc]
    have : ∀ x : F, pyAbs (a * x) = a * pyAbs x := by
      intro x
      unfold pyAbs
      have : a * x < 0 ↔ x < 0 := by rw [mul_neg_iff]; exact ⟨fun h => h.elim And.right fun h => absurd h.1 (not_lt.2 ha.le), fun h => .inl ⟨ha, h⟩⟩
      simp only [this]
      split
      · ring
      · rfl
    rw [this]
    exact mul_lt_mul_iff_right₀ ha

end
/-! ### Concrete instances -/

/-- minus the second sample of the pulse, cut to `±100` -/
def exRFn (c : ControlsOut ℚ) : ℚ := -(min 100 (max (-100) (c.pulses.flatten.getD 1 0)))

/-- the user's function on the scale `ψ` -/
def exREnv (ψ : ℚ → ℚ) : Env (Vec ℚ 1) (ControlsOut ℚ) ℚ :=
  { exUEnv 0 with getFoM := fun _ c => .ok ⟨some (ψ (exRFn c)), none, none⟩ }

/-- at most three calls in each super-iteration, goal `g` -/
def exRCfg (g : Option ℚ) : AlgCfg ℚ ℚ :=
  { exCfg .dcrab 100 false g none with
    maxSI := 2
    sc := { maxEval := 2, timeLim := 1000, xatol := 0, fatol := 0, cbsEvals := 1, cbsChange := 0 } }

/-- a run on the scale `ψ`: the end, the pulses and the answer of each call, the best pulses and the final figure of merit -/
def exRRun (ψ : ℚ → ℚ) (g : Option ℚ) (dsm : Dsm ℚ (Vec ℚ 1) ℚ) :
    Py (Py Unit × List (List (List ℚ) × Option ℚ) × Py (List (List ℚ)) × ℚ) := do
  let o ← mkControls exFns exSPd exTd []
  let r := execute (exRCfg (g.map ψ)) (exREnv ψ) exSOps dsm o
  pure (r.1, r.2.log.map (fun c => (c.ctl.pulses, (match c.ans with | .ok a => a.fom | .error _ => none))),
    (bestControls exSOps r.2).map (fun c => c.pulses), finalFoM (exRCfg (g.map ψ)) r.2)

theorem exArgsort1_orderOnly : OrderOnly exArgsort1 := fun f g h => by
  unfold exArgsort1
  simp only [h]

theorem exCmaLib_orderOnly (L : ℕ) : OrderOnly (exCmaLib.argsort (l := L)) := by
  intro f g h
  by_cases hL : L = 2
  · subst hL
    exact exArgsort1_orderOnly _ _ fun i j => h i j
  · show (if h : L = 2 then (h ▸ (exArgsort1 (fun i => f (h ▸ i)))) else Tuple.sort f : Equiv.Perm (Fin L)) =
      (if h : L = 2 then (h ▸ (exArgsort1 (fun i => g (h ▸ i)))) else Tuple.sort g : Equiv.Perm (Fin L))
    rw [dif_neg hL, dif_neg hL]
    have hf := (Tuple.eq_sort_iff (f := f) (σ := Tuple.sort f)).1 rfl
    refine Tuple.eq_sort_iff.2 ⟨fun i j hij => ?_, fun i j hij e => hf.2 i j hij ?_⟩
    · have := hf.1 hij
      exact not_lt.1 fun hlt => absurd ((h _ _).2 hlt) (not_lt.2 this)
    · exact le_antisymm (not_lt.1 fun hlt => absurd ((h _ _).1 hlt) (by rw [e]; exact lt_irrefl _))
        (not_lt.1 fun hlt => absurd ((h _ _).1 hlt) (by rw [e]; exact lt_irrefl _))

theorem exRFn_bounds (c : ControlsOut ℚ) : -100 ≤ exRFn c ∧ exRFn c ≤ 100 := by
  unfold exRFn
  refine ⟨neg_le_neg (min_le_left _ _), ?_⟩
  rw [neg_le]
  exact le_min (by norm_num) (le_max_left _ _)

/-- all hypotheses of `C91_order_decides_partial` are met by the cubes of the figures of merit, with and without a goal, with and without
drift compensation after a super-iteration -/
example (g : Option ℚ) (hg : g = none ∨ g = some (-3)) (dr : Bool) (o : Controls ℚ) :
    SameRun exSOps { exRCfg g with driftAfterSI := dr } (fun f => f ^ 3)
      (execute { exRCfg g with driftAfterSI := dr } (exREnv id) exSOps (nelderMead (exNm exArgsort1) 5) o)
      (execute { exRCfg (g.map fun f => f ^ 3) with driftAfterSI := dr } (exREnv fun f => f ^ 3) exSOps (nelderMead (exNm exArgsort1) 5) o) := by
  refine C91_order_decides_partial (cfg := { exRCfg g with driftAfterSI := dr }) (env := exREnv id) (Odd.strictMono_pow (by decide)) (by simp [exRCfg, exCfg]) rfl (.inr rfl)
    (fun g' h => ?_) (fun l c => rfl) (fun l c a f h1 h2 => ?_) (fun v _ => Iff.rfl) rfl (le_refl 1)
    (.inl ⟨_, _, rfl, by decide, exArgsort1_orderOnly⟩) o
  · have h : g = some g' := h
    rcases hg with rfl | rfl
    · cases h
    · cases h
      constructor <;> (show _ < (10 ^ 10 : ℚ)) <;> norm_num
  · cases h1; cases h2
    obtain ⟨_, hb⟩ := exRFn_bounds c
    constructor
    · show exRFn c < (10 ^ 10 : ℚ)
      linarith
    · show (exRFn c) ^ 3 < (10 ^ 10 : ℚ)
      have : (exRFn c) ^ 3 ≤ 100 ^ 3 := (Odd.strictMono_pow (R := ℚ) (n := 3) (by decide)).monotone hb
      linarith

set_option synthInstance.maxSize 1000 in
/-- the run, the run with the cubes, and the run with the cubes and the goal `-3`, that is `-27` -/
example : exRRun id none (nelderMead (exNm exArgsort1) 5) = .ok (.ok (),
      [([[0, 5 / 2, 4]], some (-5 / 2)), ([[5 / 14, 20 / 7, 61 / 14]], some (-20 / 7)), ([[5 / 7, 45 / 14, 33 / 7]], some (-45 / 14)),
       ([[15 / 14, 25 / 7, 71 / 14]], some (-25 / 7)), ([[15 / 14, 25 / 7, 71 / 14]], some (-25 / 7)),
       ([[10 / 7, 55 / 14, 38 / 7]], some (-55 / 14)), ([[25 / 14, 30 / 7, 81 / 14]], some (-30 / 7)),
       ([[15 / 7, 65 / 14, 43 / 7]], some (-65 / 14))], .ok [[15 / 7, 65 / 14, 43 / 7]], -65 / 14) ∧
    exRRun (fun f => f ^ 3) none (nelderMead (exNm exArgsort1) 5) = .ok (.ok (),
      [([[0, 5 / 2, 4]], some (-125 / 8)), ([[5 / 14, 20 / 7, 61 / 14]], some (-8000 / 343)),
       ([[5 / 7, 45 / 14, 33 / 7]], some (-91125 / 2744)), ([[15 / 14, 25 / 7, 71 / 14]], some (-15625 / 343)),
       ([[15 / 14, 25 / 7, 71 / 14]], some (-15625 / 343)), ([[10 / 7, 55 / 14, 38 / 7]], some (-166375 / 2744)),
       ([[25 / 14, 30 / 7, 81 / 14]], some (-27000 / 343)), ([[15 / 7, 65 / 14, 43 / 7]], some (-274625 / 2744))],
      .ok [[15 / 7, 65 / 14, 43 / 7]], -274625 / 2744) ∧
    exRRun (fun f => f ^ 3) (some (-3)) (nelderMead (exNm exArgsort1) 5) = .ok (.ok (),
      [([[0, 5 / 2, 4]], some (-125 / 8)), ([[5 / 14, 20 / 7, 61 / 14]], some (-8000 / 343)),
       ([[5 / 7, 45 / 14, 33 / 7]], some (-91125 / 2744))], .ok [[5 / 7, 45 / 14, 33 / 7]], -91125 / 2744) := by
  refine ⟨?_, ?_, ?_⟩ <;> decide +kernel

/-- change-based criterion: at least a change of `ch` in three calls -/
def exRUnit (ch : ℚ) : AlgCfg ℚ ℚ :=
  { exRCfg none with sc := { maxEval := 5, timeLim := 1000, xatol := 0, fatol := -1, cbsEvals := 3, cbsChange := ch } }

/-- all hypotheses of `C91_change_of_unit_partial` are met by `3 f + 1` -/
example (ch : ℚ) (o : Controls ℚ) :
    SameRun exSOps (exRUnit ch) (fun f => 3 * f + 1)
      (execute (exRUnit ch) { exREnv id with sqrt := fun _ => 0 } exSOps (cmaes exCmaLib (some 2) 5) o)
      (execute { exRUnit (3 * ch) with sc := { (exRUnit (3 * ch)).sc with fatol := -3 } }
        { exREnv (fun f => 3 * f + 1) with sqrt := fun _ => 0 } exSOps (cmaes exCmaLib (some 2) 5) o) := by
  have h := C91_change_of_unit_partial (cfg := exRUnit ch) (env := { exREnv id with sqrt := fun _ => 0 }) (a := 3) (b := 1)
    (fm := (exREnv (fun f => 3 * f + 1)).getFoM) (ops := exSOps) (dsm := cmaes exCmaLib (some 2) 5)
    (by norm_num) (by simp [exRUnit, exRCfg, exCfg]) rfl (.inl rfl) (fun g h => by cases h) (fun l c => rfl) (fun l c a f h1 h2 => ?_) (fun v _ => (mul_zero _).symm)
    (.inr ⟨_, _, _, rfl, exCmaLib_orderOnly⟩) o
  · have e : (3 : ℚ) * (exRUnit ch).sc.fatol = -3 := by show (3 : ℚ) * -1 = -3; norm_num
    rw [e] at h
    exact h
  · cases h1; cases h2
    obtain ⟨_, hb⟩ := exRFn_bounds c
    constructor
    · show exRFn c < (10 ^ 10 : ℚ)
      linarith
    · show 3 * exRFn c + 1 < (10 ^ 10 : ℚ)
      linarith

/-- exact on the squares of rational numbers -/
def exRSqrt (v : ℚ) : ℚ := (Nat.sqrt (v.num.natAbs * v.den) : ℚ) / v.den

/-- a distribution function that is strictly increasing and symmetric -/
def exRCdf (z : ℚ) : ℚ := 1 / 2 + z / (2 * (1 + |z|))

/-- without noise: the pulse `x` gets the figure of merit `a (3 - x)`, with `std` 0 -/
def exRNoiseless (a : ℚ) : Env ℚ ℚ ℚ :=
  { getFoM := fun _ c => .ok ⟨some (a * (3 - c)), some 0, none⟩, async := fun _ => .none, clock := fun n => n, sqrt := exRSqrt, cdf := exRCdf }

def exRNoiselessRun (a : ℚ) : Py Unit × AlgState ℚ ℚ Unit ℚ :=
  execute (exCfg1 (some [1 / 2, 3 / 5])) (exRNoiseless a) exOps (exDsm [1, 2]) ()

/-- **C91 is violated with re-evaluation steps.** The figures of merit of two pulses are 2 and 1, without any noise, and the second pulse
is the best one. Report the same figures of merit in a unit a hundred times as large: the better second pulse is not recognized and the first
one is kept. The reason: a standard deviation of zero is replaced by 1 in the comparison (dCRABAlgorithm.py:419-421), whatever the
unit. -/
theorem C91_reevaluation_scale :
    Rescales (fun f => 1 / 100 * f + 0) (exRNoiseless 1) (exRNoiseless (1 / 100)).getFoM ∧
    (exRNoiselessRun 1).2.bestXX = some 2 ∧ finalFoM (exCfg1 none) (exRNoiselessRun 1).2 = 1 ∧
    (exRNoiselessRun (1 / 100)).2.bestXX = some 1 ∧ finalFoM (exCfg1 none) (exRNoiselessRun (1 / 100)).2 = 2 / 100 ∧
    (exRNoiselessRun 1).2.log.map (fun c => c.ctl) = [1, 1, 2, 2, 2] ∧
    (exRNoiselessRun (1 / 100)).2.log.map (fun c => c.ctl) = [1, 1, 2, 2] := by
  refine ⟨fun l c => ?_, by decide +kernel, by decide +kernel, by decide +kernel, by decide +kernel, by decide +kernel, by decide +kernel⟩
  simp [exRNoiseless, Except.map, Answer.rescale]

/-- two super-iterations with three measurements for the drift compensation in between; `m` calls in total -/
def exRDriftRun (a : ℚ) (m : ℤ) : Py Unit × AlgState ℚ ℚ Unit ℚ :=
  execute { exCfg .dcrab m false none none with driftAfterSI := true, driftAverage := 3 } (exRNoiseless a) exOps (exDsm [1, 2]) ()

/-- **C91 is violated if a run is stopped during a drift compensation that averages.** The placeholder 10^10 of the measurement that was
not made enters the average, and does not depend on the unit: the two final figures of merit differ by more than the factor 10. -/
theorem C91_drift_average_scale :
    finalFoM (exCfg .dcrab 3 false none none) (exRDriftRun 1 3).2 = (3 + 2 * 10 ^ 10) / 3 ∧
    finalFoM (exCfg .dcrab 3 false none none) (exRDriftRun 10 3).2 = (30 + 2 * 10 ^ 10) / 3 ∧
    (exRDriftRun 1 3).2.log.map (fun c => c.ctl) = [1, 2, 0] ∧ (exRDriftRun 10 3).2.log.map (fun c => c.ctl) = [1, 2, 0] := by
  refine ⟨by decide +kernel, by decide +kernel, by decide +kernel, by decide +kernel⟩

/-- the square root satisfies the condition of `C91_change_of_unit_partial` -/
example (a : ℝ) (ha : 0 < a) (v : ℝ) (hv : 0 ≤ v) : Real.sqrt (a * a * v) = a * Real.sqrt v := by
  rw [Real.sqrt_mul (mul_self_nonneg a), Real.sqrt_mul_self ha.le]

end QuOCS

/-
CMA-ES with a population so large that the learning rate of the rank-`mu` update is capped: random draws in general position
keep the distribution non-degenerate, and random draws are in general position with probability one.
-/
import Mathlib.Probability.ProductMeasure
import Mathlib.Probability.Distributions.Gaussian.Real
import Mathlib.MeasureTheory.Measure.Lebesgue.EqHaar
import Mathlib.LinearAlgebra.LinearIndependent.Lemmas
import Mathlib.Analysis.Normed.Module.FiniteDimension
import Verif.Lemmas.CmaCov
import Verif.Spec.GeneralPosition

set_option linter.unusedSectionVars false
set_option linter.unusedVariables false

namespace QuOCS
namespace CMA
open Matrix

/-! ### capped learning rates need a large population -/

theorem capped_large {n L : ℕ} (hL : 2 ≤ L) {sq : ℝ → ℝ}
    (h : ¬ (cmaPar sq n (cmaMueff (cmaWeights Real.log (L / 2)))).cmu <
      1 - (cmaPar sq n (cmaMueff (cmaWeights Real.log (L / 2)))).c1) : n < L / 2 := by
  obtain ⟨h1, h2⟩ := C29_mueff_range hL
  set me := cmaMueff (cmaWeights Real.log (L / 2))
  by_contra hn
  have hme : me ≤ n := h2.trans (by exact_mod_cast not_lt.1 hn)
  refine h (lt_of_le_of_lt (min_le_right _ _) ?_)
  show 2 * (me - 2 + 1 / me) / (((n : ℝ) + 2) ^ 2 + me) < 1 - 2 / (((n : ℝ) + 13 / 10) ^ 2 + me)
  have hn1 : (1 : ℝ) ≤ n := h1.trans hme
  have hinv : 1 / me ≤ 1 := (div_le_one (by linarith)).2 h1
  have ha : 2 * (me - 2 + 1 / me) / (((n : ℝ) + 2) ^ 2 + me) ≤ 1 / 2 := by
    rw [div_le_iff₀ (by positivity)]
    nlinarith
  have hb : 2 / (((n : ℝ) + 13 / 10) ^ 2 + me) < 1 / 2 := by
    rw [div_lt_iff₀ (by positivity)]
    nlinarith
  linarith

/-! ### the rank-`mu` update of individuals in general position -/

variable {F : Type} {n L : ℕ}

theorem cov_posDef' {mu : ℕ} {p : CmaPar ℝ} {w : Fin mu → ℝ} {best : Fin mu → Vec ℝ n} {xold pc : Vec ℝ n} {sigma hsig : ℝ}
    {C : Matrix (Fin n) (Fin n) ℝ} (hC : C.PosDef) (h1 : 0 ≤ p.c1) (h2 : 0 < p.cmu) (h3 : 0 ≤ 1 - p.c1 - p.cmu)
    (hcc : 0 ≤ p.cc) (hcc' : p.cc ≤ 1) (hw : ∀ i, 0 < w i) (hh : hsig ≤ 1) (hs : sigma ≠ 0)
    (hsp : ∀ u : Vec ℝ n, (∀ i, u ⬝ᵥ (best i - xold) = 0) → u = 0) :
    (cmaCov p w best xold pc sigma hsig C).PosDef := by
  unfold cmaCov
  dsimp only
  set M : Matrix (Fin n) (Fin mu) ℝ := Matrix.of fun j i => (1 / sigma) * (best i j - xold j) with hM
  have hp1 : (vecMulVec pc pc).PosSemidef := by
    have := posSemidef_vecMulVec_self_star (R := ℝ) pc
    simpa using this
  have hp2 : (M * (diagonal w * M.transpose)).PosDef := by
    have hinj : Function.Injective (M.vecMul) := by
      intro u v huv
      have h0 : (u - v) ᵥ* M = 0 := by rw [Matrix.sub_vecMul]; exact sub_eq_zero.2 huv
      refine sub_eq_zero.1 (hsp _ fun i => ?_)
      have hi := congrFun h0 i
      have he : ((u - v) ᵥ* M) i = (1 / sigma) * ((u - v) ⬝ᵥ (best i - xold)) := by
        simp only [Matrix.vecMul, dotProduct, hM, Matrix.of_apply, Finset.mul_sum, Pi.sub_apply]
        exact Finset.sum_congr rfl fun j _ => by ring
      rw [he] at hi
      rcases mul_eq_zero.1 hi with hi | hi
      · exact absurd hi (one_div_ne_zero hs)
      · exact hi
    have := (PosDef.diagonal (R := ℝ) (d := w) hw).mul_mul_conjTranspose_same hinj
    rw [Matrix.mul_assoc] at this
    simpa using this
  have hp3 : (((1 - hsig) * p.cc * (2 - p.cc)) • C).PosSemidef :=
    hC.posSemidef.smul (mul_nonneg (mul_nonneg (by linarith) hcc) (by linarith))
  rw [add_comm]
  exact (hp2.smul h2).add_posSemidef ((hC.posSemidef.smul h3).add ((hp1.add hp3).smul h1))

theorem spans_of_general {z : ℕ → Vec ℝ n} (hz : InGeneralPosition z) {mu : ℕ} (hmu : n < mu) {ix : Fin mu → ℕ}
    (hix : Function.Injective ix) {u : Vec ℝ n} (hu : ∀ i, ix i ≠ 0 → u ⬝ᵥ z (ix i) = 0) : u = 0 := by
  obtain ⟨t, ht, htc⟩ : ∃ t ⊆ (Finset.univ.filter fun i : Fin mu => ix i ≠ 0), t.card = n := by
    refine Finset.exists_subset_card_eq ?_
    have h1 := Finset.card_filter_add_card_filter_not (s := (Finset.univ : Finset (Fin mu))) (fun i => ix i ≠ 0)
    have h2 : (Finset.univ.filter fun i : Fin mu => ¬ ix i ≠ 0).card ≤ 1 := by
      refine Finset.card_le_one.2 fun a ha b hb => hix ?_
      simp only [Finset.mem_filter, not_not] at ha hb
      rw [ha.2, hb.2]
    rw [Finset.card_univ, Fintype.card_fin] at h1
    omega
  have hli := hz (fun k => ix (t.orderEmbOfFin htc k)) (hix.comp (t.orderEmbOfFin htc).injective)
  have hnz : ∀ k, ix (t.orderEmbOfFin htc k) ≠ 0 := fun k =>
    (Finset.mem_filter.1 (ht (t.orderEmbOfFin_mem htc k))).2
  have hspan := hli.span_eq_top_of_card_eq_finrank' (by simp)
  have hall : ∀ v : Vec ℝ n, u ⬝ᵥ v = 0 := by
    intro v
    have hv : v ∈ Submodule.span ℝ (Set.range fun k => z (ix (t.orderEmbOfFin htc k))) := by rw [hspan]; trivial
    induction hv using Submodule.span_induction with
    | mem x hx => obtain ⟨k, rfl⟩ := hx; exact hu _ (hnz k)
    | zero => simp
    | add x y _ _ hx hy => rw [dotProduct_add, hx, hy, add_zero]
    | smul a x _ hx => rw [dotProduct_smul, hx, smul_zero]
  exact dotProduct_self_eq_zero.1 (hall u)

theorem Good.update' {lib : CmaLib ℝ F} (hl : lib.Genuine) (hL : 2 ≤ L) {s : CmaState ℝ F n L} (hs : Good s)
    (hz : InGeneralPosition (lib.randn (n := n))) {ix : Fin (L / 2) → ℕ} (hix : Function.Injective ix)
    (hb : ∀ i, cmaBest s i = s.xmean + s.sigma • (s.B * diagonal s.D).mulVec (if ix i = 0 then 0 else lib.randn (ix i))) :
    Good (cmaUpdate lib s) := by
  by_cases hp : (cmaPar lib.sqrt n (cmaMueff (cmaWeights lib.log (L / 2)))).cmu <
      1 - (cmaPar lib.sqrt n (cmaMueff (cmaWeights lib.log (L / 2)))).c1
  · exact hs.update hl hL hp
  have hm : 1 ≤ cmaMueff (cmaWeights lib.log (L / 2)) := by rw [hl.log]; exact (C29_mueff_range hL).1
  have hmu : n < L / 2 := by rw [hl.log] at hp; exact capped_large hL hp
  have hsp : ∀ u : Vec ℝ n, (∀ i, u ⬝ᵥ (cmaBest s i - s.xmean) = 0) → u = 0 := by
    intro u hu
    have h0 : u ᵥ* (s.B * diagonal s.D) = 0 := by
      refine spans_of_general hz hmu hix fun i hi => ?_
      have := hu i
      rw [hb i, if_neg hi, add_sub_cancel_left, dotProduct_smul, smul_eq_mul, dotProduct_mulVec] at this
      exact (mul_eq_zero.1 this).resolve_left hs.sigma.ne'
    exact Matrix.eq_zero_of_vecMul_eq_zero hs.BD h0
  have hcov : ∀ (hsig : ℝ) (pc : Vec ℝ n), hsig ≤ 1 →
      (cmaCov (cmaPar lib.sqrt n (cmaMueff (cmaWeights lib.log (L / 2)))) (cmaWeights lib.log (L / 2)) (cmaBest s) s.xmean
        pc s.sigma hsig s.C).PosDef := fun hsig pc hh =>
    cov_posDef' hs.C (c1_range hm).1.le (by have := (c1_range (sq := lib.sqrt) (n := n) hm).2; linarith [not_lt.1 hp])
      (by have := cmu_le (sq := lib.sqrt) (n := n) hm; linarith) (cc_range hm).1 (cc_range hm).2
      (fun i => by rw [hl.log]; exact C29_weights_positive i) hh hs.sigma.ne' hsp
  have hif : ∀ (q : Prop) (d : Decidable q), @ite ℝ q d 1 0 ≤ 1 := fun q _ => by split <;> norm_num
  have hsig : ∀ y, 0 < s.sigma * lib.exp y := fun y => by rw [hl.exp]; exact mul_pos hs.sigma (Real.exp_pos y)
  unfold cmaUpdate
  dsimp only
  split
  · exact ⟨hsig _, (mirror_good hl (hcov _ _ (hif _ _))).1, (mirror_good hl (hcov _ _ (hif _ _))).2⟩
  · exact ⟨hsig _, hcov _ _ (hif _ _), hs.BD⟩

/-! ### the search -/

variable [Zero F] [LinearOrder F] {lib : CmaLib ℝ F} {x0 : Vec ℝ n} {h : List (Ev ℝ (Vec ℝ n) F)} {s : CmaState ℝ F n L}
open NM

/-- the individuals `done` of generation `g` are drawn with the numbers `L g, L g + 1, ...` -/
def Indiv (lib : CmaLib ℝ F) (g : ℕ) (done : List (Fin L)) (s : CmaState ℝ F n L) : Prop :=
  ∀ k ∈ done, s.arx k = s.xmean + s.sigma • (s.B * diagonal s.D).mulVec
    (if L * g + (k : ℕ) = 0 then 0 else lib.randn (L * g + (k : ℕ)))

theorem sample8 {base : List (Vec ℝ n × F)} {g : ℕ} (ks done : List (Fin L)) (hd : List.finRange L = done ++ ks)
    (hs : Samp6 x0 base g done h s) (hi : Indiv lib g done s) :
    (cmaSample lib ks s).wp (G6 lib L x0) T2 (fun h' s' => Samp6 x0 base g (List.finRange L) h' s' ∧
      Indiv lib g (List.finRange L) s') h := by
  induction ks generalizing h s done with
  | nil => rw [List.append_nil] at hd; subst hd; exact ⟨hs, hi⟩
  | cons k ks ih =>
    have hlen : done.length < L := by
      have := congrArg List.length hd
      simp only [List.length_finRange, List.length_append, List.length_cons] at this
      omega
    have hkv : (k : ℕ) = done.length := by
      have h1 : (List.finRange L)[done.length]? = some k := by rw [hd]; simp
      rw [List.getElem?_eq_some_iff] at h1
      obtain ⟨h2, h1⟩ := h1
      rw [List.getElem_finRange] at h1
      rw [← h1]; rfl
    have he : (evals h).length = L * g + done.length := by rw [hs.now, List.length_append, hs.baselen, List.length_map]
    have hcen : IsCentre L x0 (evals h) ((evals h).length / L) s.xmean := by
      rw [he, Nat.mul_add_div (by omega), Nat.div_eq_of_lt hlen, hs.now]
      exact isCentre_append hs.centre _
    have hk : k ∉ done := by
      have := List.nodup_finRange L
      rw [hd] at this
      exact fun hm => (List.nodup_append.1 this).2.2 k hm k (by simp) rfl
    unfold cmaSample
    rw [Strat.wp_bind, Strat.wp_call]
    refine ⟨?_, fun f _ => ?_⟩
    · by_cases h0 : evals h = []
      · refine .inl ⟨h0, ?_⟩
        rw [if_pos (by rw [hs.count, h0]; rfl)]
        rcases hs.centre with ⟨-, hc⟩ | ⟨hg, -⟩
        · exact hc
        · exfalso
          rw [h0, List.length_nil] at he
          have : 0 < L * g := Nat.mul_pos (by omega) hg
          omega
      · refine .inr ⟨h0, s.xmean, s.sigma, s.B * diagonal s.D, hcen, hs.good.sigma, hs.good.BD, ?_⟩
        rw [if_neg (by rw [hs.count]; exact fun hh => h0 (List.length_eq_zero_iff.1 hh)), ← Matrix.mulVec_mulVec,
          hs.count]
        congr 3
        funext i
        rw [Matrix.mulVec_diagonal]
    · refine ih (done ++ [k]) (by rw [hd]; simp) ⟨⟨hs.good.sigma, hs.good.C, hs.good.BD⟩, ?_, hs.baselen, hs.centre, ?_⟩ ?_
      · rw [evals_append]; simp [hs.count]
      · rw [evals_append, hs.now, List.map_append, List.append_assoc]
        congr 1
        rw [List.map_cons, List.map_nil]
        dsimp only
        rw [Function.update_self, Function.update_self]
        congr 1
        refine List.map_congr_left fun j hj => ?_
        have hjk : j ≠ k := fun hh => hk (hh ▸ hj)
        rw [Function.update_of_ne hjk, Function.update_of_ne hjk]
      · intro j hj
        dsimp only
        rcases List.mem_append.1 hj with hj | hj
        · have hjk : j ≠ k := fun hh => hk (hh ▸ hj)
          rw [Function.update_of_ne hjk]
          exact hi j hj
        · rw [List.mem_singleton] at hj
          subst hj
          rw [Function.update_self, hkv, ← he, ← hs.count]
          split
          · simp
          · rw [← Matrix.mulVec_mulVec]
            congr 3
            funext i
            rw [Matrix.mulVec_diagonal]

theorem Samp8.next (hl : lib.Genuine) (hsort : lib.Sorts) (hL : 2 ≤ L) (hz : InGeneralPosition (lib.randn (n := n)))
    {base : List (Vec ℝ n × F)} {g : ℕ} (hs : Samp6 x0 base g (List.finRange L) h s) (hi : Indiv lib g (List.finRange L) s) :
    Head6 x0 h (cmaUpdate lib (cmaSort lib s)) := by
  obtain ⟨u1, u2, u3, u4, u5, u6⟩ := update_fields (lib := lib) (s := cmaSort lib s)
  have hg : Good (cmaSort lib s) := ⟨hs.good.sigma, hs.good.C, hs.good.BD⟩
  obtain ⟨sel, h1, h2, h3, h4⟩ := C29_best_half lib hsort s
  refine ⟨g + 1, hg.update' hl hL hz (ix := fun i => L * g + (sel i : ℕ)) ?_ ?_, ?_, ?_, .inr ⟨by omega, ?_⟩, by simp⟩
  · intro i j hij
    exact h1 (Fin.ext (Nat.add_left_cancel hij))
  · intro i
    rw [h2 i]
    exact hi _ (List.mem_finRange _)
  · rw [u4]; exact hs.count
  · rw [hs.now, List.length_append, hs.baselen, List.length_map, List.length_finRange]; ring
  · refine ⟨sel, h1, fun k => (s.arx k, s.fsim k), fun k => ?_, fun i j hij => h3 hij, fun k hk i => h4 k hk i, ?_⟩
    · rw [hs.now, Nat.add_sub_cancel, ← hs.baselen, List.getElem?_append_right (by omega), Nat.add_sub_cancel_left]
      simp
    · have hx : (cmaUpdate lib (cmaSort lib s)).xmean = cmaMean lib (cmaSort lib s) := by
        unfold cmaUpdate; dsimp only; split <;> rfl
      rw [hx]
      unfold cmaMean
      rw [hl.log]
      exact Finset.sum_congr rfl fun i _ => by rw [h2 i]

theorem loop8 (hl : lib.Genuine) (hsort : lib.Sorts) (hL : 2 ≤ L) (hz : InGeneralPosition (lib.randn (n := n))) (f : ℕ)
    (hs : Head6 x0 h s) : (cmaLoop lib f s).wp (G6 lib L x0) T2 (fun _ _ => True) h := by
  induction f generalizing h s with
  | zero => exact (Strat.wp_fail _ _ _).2 trivial
  | succ f ih =>
    unfold cmaLoop
    rw [Strat.wp_bind, Strat.wp_call]
    refine ⟨trivial, fun b _ => ?_⟩
    cases b
    swap
    · exact trivial
    simp only [Bool.false_eq_true, if_false]
    obtain ⟨g, hg⟩ := hs.congr (h' := h ++ [⟨.readConv, false⟩]) (by rw [evals_append]; exact List.append_nil _)
    rw [Strat.wp_bind]
    refine Strat.wp_mono (sample8 _ [] (by simp) hg (fun k hk => absurd hk (by simp))) fun h1 s1 hs1 => ?_
    rw [Strat.wp_bind]
    exact Strat.wp_mono (finish6 (Samp8.next hl hsort hL hz hs1.1 hs1.2)) fun h3 s3 h => ih h

theorem run8 (hl : lib.Genuine) (hsort : lib.Sorts) (hL : 2 ≤ L) (hz : InGeneralPosition (lib.randn (n := n))) (fuel : ℕ)
    (sg : Vec ℝ n) (hs : ∀ i, sg i ≠ 0) (hL0 : 0 < L) :
    (cmaRun lib hL0 fuel x0 sg).wp (G6 lib L x0) T2 (fun _ _ => True) [] := by
  unfold cmaRun
  rw [Strat.wp_bind, Strat.wp_call]
  refine ⟨trivial, fun u _ => ?_⟩
  rw [Strat.wp_bind]
  refine Strat.wp_mono (loop8 hl hsort hL hz fuel ⟨0, Good.init hL0 x0 sg hs, rfl, rfl, .inl ⟨rfl, rfl⟩, rfl⟩) fun h s _ => ?_
  rw [Strat.wp_bind, Strat.wp_call]
  exact ⟨trivial, fun _ _ => trivial⟩

/-! ### random draws are in general position -/

section
open MeasureTheory ProbabilityTheory

theorem pi_ac {k : ℕ} {μ ν : Fin k → Measure ℝ} [∀ i, SigmaFinite (μ i)] [∀ i, SigmaFinite (ν i)] (h : ∀ i, μ i ≪ ν i) :
    Measure.pi μ ≪ Measure.pi ν := by
  induction k with
  | zero => rw [Measure.pi_of_empty, Measure.pi_of_empty]
  | succ k ih =>
    have e1 := (measurePreserving_piFinSuccAbove μ 0).symm.map_eq
    have e2 := (measurePreserving_piFinSuccAbove ν 0).symm.map_eq
    rw [← e1, ← e2]
    exact ((h 0).prod (ih fun j => h _)).map (MeasurableEquiv.measurable _)

theorem stdNormal_ac : stdNormal n ≪ (volume : Measure (Fin n → ℝ)) := by
  unfold stdNormal
  rw [volume_pi]
  exact pi_ac fun _ => gaussianReal_absolutelyContinuous 0 one_ne_zero

theorem stdNormal_null {S : Submodule ℝ (Fin n → ℝ)} (hS : S ≠ ⊤) : stdNormal n S = 0 :=
  stdNormal_ac (Measure.addHaar_submodule _ S hS)

theorem measurable_independent {k : ℕ} : MeasurableSet {v : Fin k → Fin n → ℝ | LinearIndependent ℝ v} :=
  isOpen_setOfPred_linearIndependent.measurableSet

/-- `k ≤ n` independent draws are linearly independent -/
theorem pi_independent (k : ℕ) (hk : k ≤ n) :
    ∀ᵐ v ∂(Measure.pi fun _ : Fin k => stdNormal n), LinearIndependent ℝ v := by
  induction k with
  | zero => exact .of_forall fun v => linearIndependent_empty_type
  | succ k ih =>
    have e := (measurePreserving_piFinSuccAbove (fun _ : Fin (k + 1) => stdNormal n) 0).symm
    rw [← e.map_eq, ae_map_iff e.measurable.aemeasurable measurable_independent]
    have hm : MeasurableSet {x : (Fin n → ℝ) × (Fin k → Fin n → ℝ) |
        LinearIndependent ℝ ((MeasurableEquiv.piFinSuccAbove (fun _ => Fin n → ℝ) 0).symm x)} :=
      (MeasurableEquiv.measurable _) measurable_independent
    rw [← Measure.prod_swap, ae_map_iff measurable_swap.aemeasurable hm]
    refine (Measure.ae_prod_iff_ae_ae (measurable_swap hm)).2 ?_
    filter_upwards [ih (by omega)] with v hv
    have hS : Submodule.span ℝ (Set.range v) ≠ ⊤ := by
      intro h0
      have h1 := finrank_span_eq_card hv
      rw [h0, finrank_top, Module.finrank_fin_fun, Fintype.card_fin] at h1
      omega
    have h2 : ∀ᵐ x ∂stdNormal n, x ∉ Submodule.span ℝ (Set.range v) := by
      rw [ae_iff]
      simp only [not_not]
      exact stdNormal_null hS
    filter_upwards [h2] with x hx
    have hc : (MeasurableEquiv.piFinSuccAbove (fun _ : Fin (k + 1) => Fin n → ℝ) 0).symm (Prod.swap (v, x)) =
        (Fin.cons x v : Fin (k + 1) → Fin n → ℝ) := by
      simp [MeasurableEquiv.piFinSuccAbove, Fin.insertNthEquiv]
    have hi : LinearIndependent ℝ (Fin.cons x v : Fin (k + 1) → Fin n → ℝ) := linearIndependent_finCons.2 ⟨hv, hx⟩
    rw [← hc] at hi
    exact hi

theorem draws_map {k : ℕ} {s : Fin k → ℕ} (hs : Function.Injective s) :
    (stdNormalDraws n).map (fun z i => z (s i)) = Measure.pi fun _ : Fin k => stdNormal n := by
  have hmeas : Measurable fun (z : ℕ → Fin n → ℝ) (i : Fin k) => z (s i) :=
    measurable_pi_lambda _ fun i => measurable_pi_apply _
  refine (Measure.pi_eq fun t ht => ?_).symm
  rw [Measure.map_apply hmeas (MeasurableSet.univ_pi ht)]
  have he : (fun (z : ℕ → Fin n → ℝ) (i : Fin k) => z (s i)) ⁻¹' (Set.univ.pi t) =
      Set.pi (Finset.univ.image s : Finset ℕ) (Function.extend s t fun _ => Set.univ) := by
    ext z
    simp only [Set.mem_preimage, Set.mem_pi, Set.mem_univ, true_implies, Finset.coe_image, Finset.coe_univ, Set.image_univ,
      Set.mem_range, forall_exists_index, forall_apply_eq_imp_iff, hs.extend_apply]
  rw [he, stdNormalDraws, Measure.infinitePi_pi]
  · rw [Finset.prod_image fun a _ b _ hab => hs hab]
    exact Finset.prod_congr rfl fun i _ => by rw [hs.extend_apply]
  · intro j hj
    obtain ⟨i, -, rfl⟩ := Finset.mem_image.1 hj
    rw [hs.extend_apply]
    exact ht i

theorem draws_general : ∀ᵐ z ∂stdNormalDraws n, InGeneralPosition z := by
  unfold InGeneralPosition
  rw [ae_all_iff]
  intro s
  by_cases hs : Function.Injective s
  · have h := pi_independent (n := n) n le_rfl
    have hmeas : Measurable fun (z : ℕ → Fin n → ℝ) (i : Fin n) => z (s i) :=
      measurable_pi_lambda _ fun i => measurable_pi_apply _
    rw [← draws_map hs, ae_map_iff hmeas.aemeasurable measurable_independent] at h
    filter_upwards [h] with z hz _
    exact hz
  · exact .of_forall fun z h => absurd h hs

end
end CMA
end QuOCS

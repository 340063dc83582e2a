/-
The distribution CMA-ES samples from stays non-degenerate.
-/
import Mathlib.LinearAlgebra.Matrix.PosDef
import Mathlib.Algebra.Order.Star.Real
import Mathlib.Analysis.SpecialFunctions.Exp
import Mathlib.Analysis.Real.Sqrt
import Mathlib.Tactic.Linarith
import Mathlib.Tactic.Positivity
import Mathlib.Tactic.FieldSimp
import Verif.Props.CMAES

set_option linter.unusedSectionVars false
set_option linter.unusedVariables false

namespace QuOCS
namespace CMA
open Matrix

section
variable {n : ℕ} {me : ℝ} {sq : ℝ → ℝ}

theorem c1_range (hm : 1 ≤ me) : 0 < (cmaPar sq n me).c1 ∧ (cmaPar sq n me).c1 < 1 := by
  show 0 < 2 / (((n : ℝ) + 13 / 10) ^ 2 + me) ∧ 2 / (((n : ℝ) + 13 / 10) ^ 2 + me) < 1
  have hn : (0 : ℝ) ≤ n := Nat.cast_nonneg n
  refine ⟨by positivity, (div_lt_one (by positivity)).2 ?_⟩
  nlinarith

theorem cmu_nonneg (hm : 1 ≤ me) : 0 ≤ (cmaPar sq n me).cmu := by
  have h1 := c1_range (sq := sq) (n := n) hm
  refine le_min (by have := h1.2; show 0 ≤ 1 - (cmaPar sq n me).c1; linarith) ?_
  refine div_nonneg ?_ (by positivity)
  have h2 : me - 2 + 1 / me = (me - 1) ^ 2 / me := by field_simp; ring
  rw [h2]; positivity

theorem cmu_le (hm : 1 ≤ me) : (cmaPar sq n me).cmu ≤ 1 - (cmaPar sq n me).c1 := min_le_left _ _

theorem cc_range (hm : 1 ≤ me) : 0 ≤ (cmaPar sq n me).cc ∧ (cmaPar sq n me).cc ≤ 1 := by
  show 0 ≤ (4 + me / (n : ℝ)) / ((n : ℝ) + 4 + 2 * me / n) ∧ (4 + me / (n : ℝ)) / ((n : ℝ) + 4 + 2 * me / n) ≤ 1
  have hn : (0 : ℝ) ≤ n := Nat.cast_nonneg n
  have h2 : 0 ≤ me / (n : ℝ) := by positivity
  have h3 : 2 * me / (n : ℝ) = 2 * (me / n) := by ring
  rw [h3]
  refine ⟨by positivity, (div_le_one (by positivity)).2 ?_⟩
  linarith

end

section
variable {F : Type} {n L : ℕ}

theorem cov_posDef {p : CmaPar ℝ} {w : Fin L → ℝ} {best : Fin L → Vec ℝ n} {xold pc : Vec ℝ n} {sigma hsig : ℝ}
    {C : Matrix (Fin n) (Fin n) ℝ} (hC : C.PosDef) (h1 : 0 ≤ p.c1) (h2 : 0 ≤ p.cmu) (h3 : 0 < 1 - p.c1 - p.cmu)
    (hcc : 0 ≤ p.cc) (hcc' : p.cc ≤ 1) (hw : ∀ i, 0 ≤ w i) (hh : hsig ≤ 1) :
    (cmaCov p w best xold pc sigma hsig C).PosDef := by
  unfold cmaCov
  dsimp only
  set M : Matrix (Fin n) (Fin L) ℝ := Matrix.of fun j i => (1 / sigma) * (best i j - xold j) with hM
  have hp1 : (vecMulVec pc pc).PosSemidef := by
    have := posSemidef_vecMulVec_self_star (R := ℝ) pc
    simpa using this
  have hp2 : (M * (diagonal w * M.transpose)).PosSemidef := by
    have := (PosSemidef.diagonal (R := ℝ) (d := w) hw).mul_mul_conjTranspose_same M
    rw [Matrix.mul_assoc] at this
    simpa using this
  have hp3 : (((1 - hsig) * p.cc * (2 - p.cc)) • C).PosSemidef :=
    hC.posSemidef.smul (mul_nonneg (mul_nonneg (by linarith) hcc) (by linarith))
  exact ((hC.smul h3).add_posSemidef ((hp1.add hp3).smul h1)).add_posSemidef (hp2.smul h2)

theorem mirror_of_symm {C : Matrix (Fin n) (Fin n) ℝ} (hC : C.IsSymm) : cmaMirror C = C := by
  ext i j
  show (if i ≤ j then C i j else C j i) = C i j
  split
  · rfl
  · exact hC.apply i j

theorem symm_of_posDef {C : Matrix (Fin n) (Fin n) ℝ} (hC : C.PosDef) : C.IsSymm := by
  have := hC.isHermitian
  unfold IsHermitian at this
  rwa [conjTranspose_eq_transpose_of_trivial] at this

/-- the factor `B D` of a positive definite matrix is invertible -/
theorem factor_det {lib : CmaLib ℝ F} (hl : lib.Genuine) {C : Matrix (Fin n) (Fin n) ℝ} (hC : C.PosDef) :
    ((lib.eigh C).2 * diagonal fun i => lib.sqrt ((lib.eigh C).1 i)).det ≠ 0 ∧
    ((lib.eigh C).2 * diagonal fun i => lib.sqrt ((lib.eigh C).1 i)) *
      ((lib.eigh C).2 * diagonal fun i => lib.sqrt ((lib.eigh C).1 i)).transpose = C := by
  obtain ⟨h1, h2⟩ := hl.eigh C (symm_of_posDef hC)
  set B := (lib.eigh C).2
  set lv := (lib.eigh C).1
  -- the eigenvalues are positive
  have hdiag : B.transpose * C * B = diagonal lv := by
    rw [← h1]
    calc B.transpose * (B * (diagonal lv * B.transpose)) * B = (B.transpose * B) * diagonal lv * (B.transpose * B) := by
          simp only [Matrix.mul_assoc]
      _ = diagonal lv := by rw [h2]; simp
  have hBinj : Function.Injective B.mulVec := by
    intro u v huv
    have := congrArg B.transpose.mulVec huv
    simpa [Matrix.mulVec_mulVec, h2] using this
  have hpd : (diagonal lv).PosDef := by
    rw [← hdiag]
    have := hC.conjTranspose_mul_mul_same hBinj
    simpa using this
  have hpos : ∀ i, 0 < lv i := Matrix.posDef_diagonal_iff.1 hpd
  have hfac : (B * diagonal fun i => lib.sqrt (lv i)) * (B * diagonal fun i => lib.sqrt (lv i)).transpose = C := by
    rw [Matrix.transpose_mul, Matrix.diagonal_transpose, Matrix.mul_assoc, ← Matrix.mul_assoc (diagonal _),
      Matrix.diagonal_mul_diagonal]
    have : (fun i => lib.sqrt (lv i) * lib.sqrt (lv i)) = lv := by
      funext i
      rw [hl.sqrt]
      exact Real.mul_self_sqrt (hpos i).le
    rw [this, h1]
  refine ⟨?_, hfac⟩
  intro h0
  have h3 : C.det ≠ 0 := by
    have := hC.isUnit
    rw [Matrix.isUnit_iff_isUnit_det] at this
    exact this.ne_zero
  rw [← hfac, Matrix.det_mul, h0, zero_mul] at h3
  exact h3 rfl

theorem mirror_good {lib : CmaLib ℝ F} (hl : lib.Genuine) {C : Matrix (Fin n) (Fin n) ℝ} (hC : C.PosDef) :
    (cmaMirror C).PosDef ∧
      ((lib.eigh (cmaMirror C)).2 * diagonal fun i => lib.sqrt ((lib.eigh (cmaMirror C)).1 i)).det ≠ 0 := by
  rw [mirror_of_symm (symm_of_posDef hC)]
  exact ⟨hC, (factor_det hl hC).1⟩

/-- non-degenerate distribution -/
structure Good (s : CmaState ℝ F n L) : Prop where
  sigma : 0 < s.sigma
  C : s.C.PosDef
  BD : (s.B * diagonal s.D).det ≠ 0

theorem Good.init [Zero F] (hL : 0 < L) (x0 sg : Vec ℝ n) (hs : ∀ i, sg i ≠ 0) :
    Good (cmaInit hL x0 sg : CmaState ℝ F n L) := by
  refine ⟨one_pos, ?_, ?_⟩
  · exact PosDef.diagonal fun i => by have := hs i; positivity
  · show ((1 : Matrix (Fin n) (Fin n) ℝ) * diagonal sg).det ≠ 0
    rw [one_mul, det_diagonal]
    exact Finset.prod_ne_zero_iff.2 fun i _ => hs i

theorem Good.update {lib : CmaLib ℝ F} (hl : lib.Genuine) (hL : 2 ≤ L)
    (hp : (cmaPar lib.sqrt n (cmaMueff (cmaWeights lib.log (L / 2)))).cmu <
      1 - (cmaPar lib.sqrt n (cmaMueff (cmaWeights lib.log (L / 2)))).c1)
    {s : CmaState ℝ F n L} (hs : Good s) : Good (cmaUpdate lib s) := by
  have hm : 1 ≤ cmaMueff (cmaWeights lib.log (L / 2)) := by rw [hl.log]; exact (C29_mueff_range hL).1
  have hcov : ∀ (hsig : ℝ) (pc : Vec ℝ n), hsig ≤ 1 →
      (cmaCov (cmaPar lib.sqrt n (cmaMueff (cmaWeights lib.log (L / 2)))) (cmaWeights lib.log (L / 2)) (cmaBest s) s.xmean
        pc s.sigma hsig s.C).PosDef := fun hsig pc hh =>
    cov_posDef hs.C (c1_range hm).1.le (cmu_nonneg hm) (by linarith) (cc_range hm).1 (cc_range hm).2
      (fun i => by rw [hl.log]; exact (C29_weights_positive i).le) hh
  have hif : ∀ (q : Prop) (d : Decidable q), @ite ℝ q d 1 0 ≤ 1 := fun q _ => by split <;> norm_num
  have hsig : ∀ y, 0 < s.sigma * lib.exp y := fun y => by rw [hl.exp]; exact mul_pos hs.sigma (Real.exp_pos y)
  unfold cmaUpdate
  dsimp only
  split
  · exact ⟨hsig _, (mirror_good hl (hcov _ _ (hif _ _))).1, (mirror_good hl (hcov _ _ (hif _ _))).2⟩
  · exact ⟨hsig _, hcov _ _ (hif _ _), hs.BD⟩

/-! ### the sampled points -/

variable [Zero F] [LinearOrder F] {lib : CmaLib ℝ F} {x0 : Vec ℝ n} {h : List (Ev ℝ (Vec ℝ n) F)} {s : CmaState ℝ F n L}
open NM

def G6 (lib : CmaLib ℝ F) (L : ℕ) (x0 : Vec ℝ n) (h : List (Ev ℝ (Vec ℝ n) F)) : Op ℝ (Vec ℝ n) F → Prop
  | .eval x _ => Drawn lib L x0 (evals h) x
  | _ => True

theorem isCentre_append {pts : List (Vec ℝ n × F)} {g : ℕ} {c : Vec ℝ n} (hc : IsCentre L x0 pts g c) (l : List (Vec ℝ n × F)) :
    IsCentre L x0 (pts ++ l) g c := by
  rcases hc with hc | ⟨hg, sel, h1, pt, h2, h3⟩
  · exact .inl hc
  · refine .inr ⟨hg, sel, h1, pt, fun k => ?_, h3⟩
    have hk := h2 k
    have hlt := (List.getElem?_eq_some_iff.1 hk).1
    rw [List.getElem?_append_left hlt]
    exact hk

structure Samp6 (x0 : Vec ℝ n) (base : List (Vec ℝ n × F)) (g : ℕ) (done : List (Fin L))
    (h : List (Ev ℝ (Vec ℝ n) F)) (s : CmaState ℝ F n L) : Prop where
  good : Good s
  count : s.counteval = (evals h).length
  baselen : base.length = L * g
  centre : IsCentre L x0 base g s.xmean
  now : evals h = base ++ done.map (fun k => (s.arx k, s.fsim k))

theorem sample6 {base : List (Vec ℝ n × F)} {g : ℕ} (ks done : List (Fin L)) (hd : List.finRange L = done ++ ks)
    (hs : Samp6 x0 base g done h s) :
    (cmaSample lib ks s).wp (G6 lib L x0) T2 (fun h' s' => Samp6 x0 base g (List.finRange L) h' s') h := by
  induction ks generalizing h s done with
  | nil => rw [List.append_nil] at hd; subst hd; exact hs
  | cons k ks ih =>
    have hlen : done.length < L := by
      have := congrArg List.length hd
      simp only [List.length_finRange, List.length_append, List.length_cons] at this
      omega
    have he : (evals h).length = L * g + done.length := by rw [hs.now, List.length_append, hs.baselen, List.length_map]
    have hcen : IsCentre L x0 (evals h) ((evals h).length / L) s.xmean := by
      rw [he, Nat.mul_add_div (by omega), Nat.div_eq_of_lt hlen, hs.now]
      exact isCentre_append hs.centre _
    unfold cmaSample
    rw [Strat.wp_bind, Strat.wp_call]
    refine ⟨?_, fun f _ => ?_⟩
    · by_cases h0 : evals h = []
      · refine .inl ⟨h0, ?_⟩
        rw [if_pos (by rw [hs.count, h0]; rfl)]
        rcases hs.centre with ⟨-, hc⟩ | ⟨hg, -⟩
        · exact hc
        · exfalso
          rw [h0, List.length_nil] at he
          have : 0 < L * g := Nat.mul_pos (by omega) hg
          omega
      · refine .inr ⟨h0, s.xmean, s.sigma, s.B * diagonal s.D, hcen, hs.good.sigma, hs.good.BD, ?_⟩
        rw [if_neg (by rw [hs.count]; exact fun hh => h0 (List.length_eq_zero_iff.1 hh)), ← Matrix.mulVec_mulVec,
          hs.count]
        congr 3
        funext i
        rw [Matrix.mulVec_diagonal]
    · refine ih (done ++ [k]) (by rw [hd]; simp) ⟨⟨hs.good.sigma, hs.good.C, hs.good.BD⟩, ?_, hs.baselen, hs.centre, ?_⟩
      · rw [evals_append]; simp [hs.count]
      · have hk : k ∉ done := by
          have := List.nodup_finRange L
          rw [hd] at this
          exact fun hm => (List.nodup_append.1 this).2.2 k hm k (by simp) rfl
        rw [evals_append, hs.now, List.map_append, List.append_assoc]
        congr 1
        rw [List.map_cons, List.map_nil]
        dsimp only
        rw [Function.update_self, Function.update_self]
        congr 1
        refine List.map_congr_left fun j hj => ?_
        have hjk : j ≠ k := fun hh => hk (hh ▸ hj)
        rw [Function.update_of_ne hjk, Function.update_of_ne hjk]

/-- at the head of the loop -/
def Head6 (x0 : Vec ℝ n) (h : List (Ev ℝ (Vec ℝ n) F)) (s : CmaState ℝ F n L) : Prop :=
  ∃ g, Samp6 x0 (evals h) g ([] : List (Fin L)) h s

theorem Head6.congr {h' : List (Ev ℝ (Vec ℝ n) F)} (hs : Head6 x0 h s) (he : evals h' = evals h) : Head6 x0 h' s := by
  obtain ⟨g, h1, h2, h3, h4, h5⟩ := hs
  exact ⟨g, h1, by rw [he]; exact h2, by rw [he]; exact h3, by rw [he]; exact h4, by simp⟩

theorem Samp6.next (hl : lib.Genuine) (hsort : lib.Sorts) (hL : 2 ≤ L)
    (hp : (cmaPar lib.sqrt n (cmaMueff (cmaWeights lib.log (L / 2)))).cmu <
      1 - (cmaPar lib.sqrt n (cmaMueff (cmaWeights lib.log (L / 2)))).c1)
    {base : List (Vec ℝ n × F)} {g : ℕ} (hs : Samp6 x0 base g (List.finRange L) h s) :
    Head6 x0 h (cmaUpdate lib (cmaSort lib s)) := by
  obtain ⟨u1, u2, u3, u4, u5, u6⟩ := update_fields (lib := lib) (s := cmaSort lib s)
  have hg : Good (cmaSort lib s) := ⟨hs.good.sigma, hs.good.C, hs.good.BD⟩
  refine ⟨g + 1, hg.update hl hL hp, ?_, ?_, .inr ⟨by omega, ?_⟩, by simp⟩
  · rw [u4]; exact hs.count
  · rw [hs.now, List.length_append, hs.baselen, List.length_map, List.length_finRange]; ring
  · obtain ⟨sel, h1, h2, h3, h4⟩ := C29_best_half lib hsort s
    refine ⟨sel, h1, fun k => (s.arx k, s.fsim k), fun k => ?_, fun i j hij => h3 hij, fun k hk i => h4 k hk i, ?_⟩
    · rw [hs.now, Nat.add_sub_cancel, ← hs.baselen, List.getElem?_append_right (by omega), Nat.add_sub_cancel_left]
      simp
    · have hx : (cmaUpdate lib (cmaSort lib s)).xmean = cmaMean lib (cmaSort lib s) := by
        unfold cmaUpdate; dsimp only; split <;> rfl
      rw [hx]
      unfold cmaMean
      rw [hl.log]
      exact Finset.sum_congr rfl fun i _ => by rw [h2 i]

theorem finish6 (hs : Head6 x0 h s) : (cmaFinish s).wp (G6 lib L x0) T2 (fun h' _ => Head6 x0 h' s) h := by
  unfold cmaFinish
  rw [Strat.wp_bind, Strat.wp_call]
  refine ⟨trivial, fun b _ => ?_⟩
  cases b
  · simp only [Bool.false_eq_true, if_false]
    rw [Strat.wp_bind, Strat.wp_call]
    refine ⟨trivial, fun u _ => ?_⟩
    rw [Strat.wp_call]
    refine ⟨trivial, fun v _ => hs.congr ?_⟩
    rw [evals_append, evals_append, evals_append]
    simp [evals, Ev.evaluated]
  · simp only [if_true]
    refine (Strat.wp_call _ _ _).2 ⟨trivial, fun v _ => hs.congr ?_⟩
    rw [evals_append, evals_append]
    simp [evals, Ev.evaluated]

theorem loop6 (hl : lib.Genuine) (hsort : lib.Sorts) (hL : 2 ≤ L)
    (hp : (cmaPar lib.sqrt n (cmaMueff (cmaWeights lib.log (L / 2)))).cmu <
      1 - (cmaPar lib.sqrt n (cmaMueff (cmaWeights lib.log (L / 2)))).c1) (f : ℕ) (hs : Head6 x0 h s) :
    (cmaLoop lib f s).wp (G6 lib L x0) T2 (fun _ _ => True) h := by
  induction f generalizing h s with
  | zero => exact (Strat.wp_fail _ _ _).2 trivial
  | succ f ih =>
    unfold cmaLoop
    rw [Strat.wp_bind, Strat.wp_call]
    refine ⟨trivial, fun b _ => ?_⟩
    cases b
    swap
    · exact trivial
    simp only [Bool.false_eq_true, if_false]
    obtain ⟨g, hg⟩ := hs.congr (h' := h ++ [⟨.readConv, false⟩]) (by rw [evals_append]; exact List.append_nil _)
    rw [Strat.wp_bind]
    refine Strat.wp_mono (sample6 _ [] (by simp) hg) fun h1 s1 hs1 => ?_
    rw [Strat.wp_bind]
    exact Strat.wp_mono (finish6 (hs1.next hl hsort hL hp)) fun h3 s3 h => ih h

theorem run6 (hl : lib.Genuine) (hsort : lib.Sorts) (hL : 2 ≤ L)
    (hp : (cmaPar lib.sqrt n (cmaMueff (cmaWeights lib.log (L / 2)))).cmu <
      1 - (cmaPar lib.sqrt n (cmaMueff (cmaWeights lib.log (L / 2)))).c1) (fuel : ℕ) (sg : Vec ℝ n) (hs : ∀ i, sg i ≠ 0)
    (hL0 : 0 < L) : (cmaRun lib hL0 fuel x0 sg).wp (G6 lib L x0) T2 (fun _ _ => True) [] := by
  unfold cmaRun
  rw [Strat.wp_bind, Strat.wp_call]
  refine ⟨trivial, fun u _ => ?_⟩
  rw [Strat.wp_bind]
  refine Strat.wp_mono (loop6 hl hsort hL hp fuel ⟨0, Good.init hL0 x0 sg hs, rfl, rfl, .inl ⟨rfl, rfl⟩, rfl⟩) fun h s _ => ?_
  rw [Strat.wp_bind, Strat.wp_call]
  exact ⟨trivial, fun _ _ => trivial⟩

/-- with the default population the learning rates leave a part of the old covariance matrix -/
theorem default_rates {L : ℕ} {n : ℕ} (hn : n ≠ 0) (hL : 2 ≤ L) (hle : (L : ℝ) ≤ 4 + 3 * Real.log n) {sq : ℝ → ℝ} :
    (cmaPar sq n (cmaMueff (cmaWeights Real.log (L / 2)))).cmu <
      1 - (cmaPar sq n (cmaMueff (cmaWeights Real.log (L / 2)))).c1 := by
  obtain ⟨h1, h2⟩ := C29_mueff_range hL
  set me := cmaMueff (cmaWeights Real.log (L / 2))
  have hn1 : (1 : ℝ) ≤ n := by exact_mod_cast Nat.one_le_iff_ne_zero.2 hn
  have hlog : Real.log n ≤ n - 1 := Real.log_le_sub_one_of_pos (by linarith)
  have h3 : ((L / 2 : ℕ) : ℝ) ≤ L / 2 := Nat.cast_div_le
  have hme : me ≤ 1 / 2 + 3 / 2 * n := by linarith
  refine lt_of_le_of_lt (min_le_right _ _) ?_
  show 2 * (me - 2 + 1 / me) / (((n : ℝ) + 2) ^ 2 + me) < 1 - 2 / (((n : ℝ) + 13 / 10) ^ 2 + me)
  have hinv : 1 / me ≤ 1 := (div_le_one (by linarith)).2 h1
  have ha : 2 * (me - 2 + 1 / me) / (((n : ℝ) + 2) ^ 2 + me) ≤ 1 / 2 := by
    rw [div_le_iff₀ (by positivity)]
    nlinarith
  have hb : 2 / (((n : ℝ) + 13 / 10) ^ 2 + me) < 1 / 2 := by
    rw [div_lt_iff₀ (by positivity)]
    nlinarith
  linarith

end
end CMA
end QuOCS

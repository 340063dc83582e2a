/-
The modelled CMA-ES follows the published one.
-/
import Mathlib.Analysis.Matrix.Order
import Verif.Spec.CmaReference
import Verif.Lemmas.CmaCov

set_option linter.unusedSectionVars false
set_option linter.unusedVariables false

namespace QuOCS
namespace CMA
open Matrix NM

section
variable {F : Type} {n L : ℕ}

theorem weight_ref (mu : ℕ) (i : Fin mu) : cmaWeights Real.log mu i = CmaRef.weight mu i := rfl

theorem mueff_ref (mu : ℕ) : cmaMueff (cmaWeights Real.log mu) = CmaRef.mueff mu := rfl

theorem par_ref (n mu : ℕ) : (cmaPar Real.sqrt n (CmaRef.mueff mu)).cs = CmaRef.cs n mu ∧
    (cmaPar Real.sqrt n (CmaRef.mueff mu)).cc = CmaRef.cc n mu ∧
    (cmaPar Real.sqrt n (CmaRef.mueff mu)).c1 = CmaRef.c1 n mu ∧
    (cmaPar Real.sqrt n (CmaRef.mueff mu)).cmu = CmaRef.cmu n mu ∧
    (cmaPar Real.sqrt n (CmaRef.mueff mu)).damps = CmaRef.damps n mu ∧
    (cmaPar Real.sqrt n (CmaRef.mueff mu)).mueff = CmaRef.mueff mu := by
  have h : (13 / 10 : ℝ) = 1.3 := by norm_num
  have h1 : (cmaPar Real.sqrt n (CmaRef.mueff mu)).c1 = CmaRef.c1 n mu := by
    show 2 / (((n : ℝ) + 13 / 10) ^ 2 + _) = 2 / _
    rw [h]
  refine ⟨rfl, rfl, h1, ?_, rfl, rfl⟩
  show min (1 - (cmaPar Real.sqrt n (CmaRef.mueff mu)).c1) _ = _
  rw [h1]; rfl

/-- the distribution of a state -/
def distOf (s : CmaState ℝ F n L) : CmaRef.Dist n :=
  { mean := s.xmean, sigma := s.sigma, ps := s.ps, pc := s.pc, C := s.C, factor := s.B * diagonal s.D, invsqrt := s.invsqrtC }

theorem cov_posSemidef {p : CmaPar ℝ} {mu : ℕ} {w : Fin mu → ℝ} {best : Fin mu → Vec ℝ n} {xold pc : Vec ℝ n} {sigma hsig : ℝ}
    {C : Matrix (Fin n) (Fin n) ℝ} (hC : C.PosSemidef) (h1 : 0 ≤ p.c1) (h2 : 0 ≤ p.cmu) (h3 : 0 ≤ 1 - p.c1 - p.cmu)
    (hcc : 0 ≤ p.cc) (hcc' : p.cc ≤ 1) (hw : ∀ i, 0 ≤ w i) (hh : hsig ≤ 1) :
    (cmaCov p w best xold pc sigma hsig C).PosSemidef := by
  unfold cmaCov
  dsimp only
  set M : Matrix (Fin n) (Fin mu) ℝ := Matrix.of fun j i => (1 / sigma) * (best i j - xold j) with hM
  have hp1 : (vecMulVec pc pc).PosSemidef := by
    have := posSemidef_vecMulVec_self_star (R := ℝ) pc
    simpa using this
  have hp2 : (M * (diagonal w * M.transpose)).PosSemidef := by
    have := (PosSemidef.diagonal (R := ℝ) (d := w) hw).mul_mul_conjTranspose_same M
    rw [Matrix.mul_assoc] at this
    simpa using this
  have hp3 : (((1 - hsig) * p.cc * (2 - p.cc)) • C).PosSemidef :=
    hC.smul (mul_nonneg (mul_nonneg (by linarith) hcc) (by linarith))
  exact ((hC.smul h3).add ((hp1.add hp3).smul h1)).add (hp2.smul h2)

theorem symm_of_posSemidef {C : Matrix (Fin n) (Fin n) ℝ} (hC : C.PosSemidef) : C.IsSymm := by
  have := hC.isHermitian
  unfold IsHermitian at this
  rwa [conjTranspose_eq_transpose_of_trivial] at this

/-- `B D` is a factor of a covariance matrix -/
theorem factor_semidef {lib : CmaLib ℝ F} (hl : lib.Genuine) {C : Matrix (Fin n) (Fin n) ℝ} (hC : C.PosSemidef) :
    ((lib.eigh C).2 * diagonal fun i => lib.sqrt ((lib.eigh C).1 i)) *
      ((lib.eigh C).2 * diagonal fun i => lib.sqrt ((lib.eigh C).1 i)).transpose = C := by
  obtain ⟨h1, h2⟩ := hl.eigh C (symm_of_posSemidef hC)
  set B := (lib.eigh C).2
  set lv := (lib.eigh C).1
  have hdiag : B.transpose * C * B = diagonal lv := by
    rw [← h1]
    calc B.transpose * (B * (diagonal lv * B.transpose)) * B = (B.transpose * B) * diagonal lv * (B.transpose * B) := by
          simp only [Matrix.mul_assoc]
      _ = diagonal lv := by rw [h2]; simp
  have hpd : (diagonal lv).PosSemidef := by
    rw [← hdiag]
    have := hC.conjTranspose_mul_mul_same B
    simpa using this
  have hpos : ∀ i, 0 ≤ lv i := Matrix.posSemidef_diagonal_iff.1 hpd
  rw [Matrix.transpose_mul, Matrix.diagonal_transpose, Matrix.mul_assoc, ← Matrix.mul_assoc (diagonal _),
    Matrix.diagonal_mul_diagonal]
  have : (fun i => lib.sqrt (lv i) * lib.sqrt (lv i)) = lv := by
    funext i
    rw [hl.sqrt]
    exact Real.mul_self_sqrt (hpos i)
  rw [this, h1]

theorem posDef_of_det {C : Matrix (Fin n) (Fin n) ℝ} (hC : C.PosSemidef) (hd : C.det ≠ 0) : C.PosDef :=
  hC.posDef_iff_det_ne_zero.2 hd

/-- inverse square root from the eigenvalue decomposition -/
theorem invsqrt_good {lib : CmaLib ℝ F} (hl : lib.Genuine) {C : Matrix (Fin n) (Fin n) ℝ} (hC : C.PosDef) :
    ((lib.eigh C).2 * (diagonal (fun i => 1 / lib.sqrt ((lib.eigh C).1 i)) * (lib.eigh C).2.transpose)).PosDef ∧
    ((lib.eigh C).2 * (diagonal (fun i => 1 / lib.sqrt ((lib.eigh C).1 i)) * (lib.eigh C).2.transpose)) * C *
      ((lib.eigh C).2 * (diagonal (fun i => 1 / lib.sqrt ((lib.eigh C).1 i)) * (lib.eigh C).2.transpose)) = 1 := by
  obtain ⟨h1, h2⟩ := hl.eigh C (symm_of_posDef hC)
  set B := (lib.eigh C).2
  set lv := (lib.eigh C).1
  have h2' : B * B.transpose = 1 := mul_eq_one_comm.1 h2
  have hdiag : B.transpose * C * B = diagonal lv := by
    rw [← h1]
    calc B.transpose * (B * (diagonal lv * B.transpose)) * B = (B.transpose * B) * diagonal lv * (B.transpose * B) := by
          simp only [Matrix.mul_assoc]
      _ = diagonal lv := by rw [h2]; simp
  have hBinj : Function.Injective B.mulVec := by
    intro u v huv
    have := congrArg B.transpose.mulVec huv
    simpa [Matrix.mulVec_mulVec, h2] using this
  have hpd : (diagonal lv).PosDef := by
    rw [← hdiag]
    have := hC.conjTranspose_mul_mul_same hBinj
    simpa using this
  have hpos : ∀ i, 0 < lv i := Matrix.posDef_diagonal_iff.1 hpd
  have hs : ∀ i, 0 < lib.sqrt (lv i) := fun i => by rw [hl.sqrt]; exact Real.sqrt_pos.2 (hpos i)
  have hBTinj : Function.Injective B.transpose.mulVec := by
    intro u v huv
    have := congrArg B.mulVec huv
    simpa [Matrix.mulVec_mulVec, h2'] using this
  refine ⟨?_, ?_⟩
  · have hd : (diagonal fun i => 1 / lib.sqrt (lv i)).PosDef := PosDef.diagonal fun i => by have := hs i; positivity
    have := hd.conjTranspose_mul_mul_same hBTinj
    simpa [Matrix.mul_assoc] using this
  · calc (B * (diagonal (fun i => 1 / lib.sqrt (lv i)) * B.transpose)) * C *
          (B * (diagonal (fun i => 1 / lib.sqrt (lv i)) * B.transpose))
        = B * (diagonal (fun i => 1 / lib.sqrt (lv i)) * (B.transpose * C * B) *
            diagonal (fun i => 1 / lib.sqrt (lv i))) * B.transpose := by simp only [Matrix.mul_assoc]
      _ = B * (1 : Matrix (Fin n) (Fin n) ℝ) * B.transpose := by
          rw [hdiag, diagonal_mul_diagonal, diagonal_mul_diagonal]
          congr 2
          rw [← diagonal_one]
          congr 1
          funext i
          have h := Real.mul_self_sqrt (hpos i).le
          have h0 := (hs i).ne'
          rw [hl.sqrt] at h0 ⊢
          field_simp
          rw [pow_two, h]
      _ = 1 := by rw [mul_one, h2']

/-- the paths, step size and covariance matrix of a generation, with the constants of the publication -/
noncomputable def psNext (s : CmaState ℝ F n L) (m : Vec ℝ n) : Vec ℝ n :=
  (1 - CmaRef.cs n (L / 2)) • s.ps + (Real.sqrt (CmaRef.cs n (L / 2) * (2 - CmaRef.cs n (L / 2)) * CmaRef.mueff (L / 2)) /
    s.sigma) • s.invsqrtC.mulVec (m - s.xmean)

open Classical in
noncomputable def hsigOf (s : CmaState ℝ F n L) (ps : Vec ℝ n) : ℝ :=
  if CmaRef.NotStalled (L / 2) L s.counteval ps then 1 else 0

noncomputable def pcNext (s : CmaState ℝ F n L) (m : Vec ℝ n) (h : ℝ) : Vec ℝ n :=
  (1 - CmaRef.cc n (L / 2)) • s.pc + (h * Real.sqrt (CmaRef.cc n (L / 2) * (2 - CmaRef.cc n (L / 2)) *
    CmaRef.mueff (L / 2)) / s.sigma) • (m - s.xmean)

theorem update_values {lib : CmaLib ℝ F} (hl : lib.Genuine) (hpow : lib.pow = fun x y => x ^ y)
    (s : CmaState ℝ F n L) :
    ∃ m ps pc : Vec ℝ n, ∃ h : ℝ, ∃ C : Matrix (Fin n) (Fin n) ℝ, ∃ sigma : ℝ,
      m = ∑ i, CmaRef.weight (L / 2) i • cmaBest s i ∧ ps = psNext s m ∧ h = hsigOf s ps ∧ pc = pcNext s m h ∧
      C = cmaCov (cmaPar Real.sqrt n (CmaRef.mueff (L / 2))) (CmaRef.weight (L / 2)) (cmaBest s) s.xmean pc s.sigma h s.C ∧
      sigma = s.sigma * Real.exp (CmaRef.cs n (L / 2) / CmaRef.damps n (L / 2) * (CmaRef.len ps / CmaRef.chiN n - 1)) ∧
      (cmaUpdate lib s).xmean = m ∧ (cmaUpdate lib s).ps = ps ∧ (cmaUpdate lib s).pc = pc ∧
      (cmaUpdate lib s).sigma = sigma ∧
      (((s.counteval : ℝ) > L / (CmaRef.c1 n (L / 2) + CmaRef.cmu n (L / 2)) / n / 10 ∧
        (cmaUpdate lib s).C = cmaMirror C ∧ (cmaUpdate lib s).B = (lib.eigh (cmaMirror C)).2 ∧
        (cmaUpdate lib s).D = (fun i => lib.sqrt ((lib.eigh (cmaMirror C)).1 i)) ∧
        (cmaUpdate lib s).invsqrtC = (lib.eigh (cmaMirror C)).2 *
          (diagonal (fun i => 1 / lib.sqrt ((lib.eigh (cmaMirror C)).1 i)) * (lib.eigh (cmaMirror C)).2.transpose)) ∨
      (¬ (s.counteval : ℝ) > L / (CmaRef.c1 n (L / 2) + CmaRef.cmu n (L / 2)) / n / 10 ∧
        (cmaUpdate lib s).C = C ∧ (cmaUpdate lib s).B = s.B ∧ (cmaUpdate lib s).D = s.D ∧
        (cmaUpdate lib s).invsqrtC = s.invsqrtC)) := by
  obtain ⟨q1, q2, q3, q4, q5, q6⟩ := par_ref n (L / 2)
  have hm : cmaMean lib s = ∑ i, CmaRef.weight (L / 2) i • cmaBest s i := by unfold cmaMean; rw [hl.log]; rfl
  have hh : ∀ ps : Vec ℝ n, (if vecNorm Real.sqrt ps / Real.sqrt (1 - (1 - CmaRef.cs n (L / 2)) ^ (2 * (s.counteval : ℝ) / (L : ℝ))) /
      cmaChi Real.sqrt n < 14 / 10 + 2 / ((n : ℝ) + 1) then (1 : ℝ) else 0) = hsigOf s ps := by
    intro ps
    have h14 : (14 / 10 : ℝ) = 1.4 := by norm_num
    rw [h14]
    unfold hsigOf CmaRef.NotStalled
    exact if_congr Iff.rfl rfl rfl
  refine ⟨_, _, _, _, _, _, rfl, rfl, rfl, rfl, rfl, rfl, ?_⟩
  unfold cmaUpdate
  dsimp only
  rw [hl.log, hl.sqrt, hl.exp, hpow, mueff_ref, hm, q1, q2, q3, q4, q5, q6]
  dsimp only
  rw [hh]
  by_cases hc : (s.counteval : ℝ) > (L : ℝ) / (CmaRef.c1 n (L / 2) + CmaRef.cmu n (L / 2)) / (n : ℝ) / 10
  · rw [if_pos hc]
    exact ⟨rfl, rfl, rfl, rfl, .inl ⟨hc, rfl, rfl, rfl, rfl⟩⟩
  · rw [if_neg hc]
    exact ⟨rfl, rfl, rfl, rfl, .inr ⟨hc, rfl, rfl, rfl, rfl⟩⟩

theorem cov_entry (p : CmaPar ℝ) {mu : ℕ} (w : Fin mu → ℝ) (best : Fin mu → Vec ℝ n) (xold pc : Vec ℝ n) (sigma h : ℝ)
    (C : Matrix (Fin n) (Fin n) ℝ) (i j : Fin n) :
    cmaCov p w best xold pc sigma h C i j = (1 - p.c1 - p.cmu) * C i j +
      p.c1 * (pc i * pc j + (1 - h) * p.cc * (2 - p.cc) * C i j) +
      p.cmu * ∑ k, w k * ((best k i - xold i) / sigma * ((best k j - xold j) / sigma)) := by
  unfold cmaCov
  simp only [Matrix.add_apply, Matrix.smul_apply, smul_eq_mul, Matrix.vecMulVec_apply]
  congr 2
  rw [Matrix.mul_apply]
  refine Finset.sum_congr rfl fun k _ => ?_
  rw [Matrix.diagonal_mul]
  simp only [Matrix.transpose_apply, Matrix.of_apply]
  ring

/-- positive step size, covariance matrix without negative directions -/
structure Fair (s : CmaState ℝ F n L) : Prop where
  sigma : 0 < s.sigma
  C : s.C.PosSemidef

theorem step_ref {lib : CmaLib ℝ F} (hl : lib.Genuine) (hpow : lib.pow = fun x y => x ^ y) (hL : 2 ≤ L)
    {s : CmaState ℝ F n L} (hs : Fair s) :
    CmaRef.Step L s.counteval (cmaBest s) (distOf s) (distOf (cmaUpdate lib s)) ∧ Fair (cmaUpdate lib s) := by
  obtain ⟨q1, q2, q3, q4, q5, q6⟩ := par_ref n (L / 2)
  have hm : 1 ≤ CmaRef.mueff (L / 2) := (C29_mueff_range hL).1
  obtain ⟨m, ps, pc, h, C, sigma, e1, e2, e3, e4, e5, e6, u1, u2, u3, u4, u5⟩ := update_values hl hpow s
  have hsym : cmaMirror C = C ∧ C.PosSemidef := by
    have hC : C.PosSemidef := by
      rw [e5]
      refine cov_posSemidef hs.C (c1_range hm).1.le (cmu_nonneg hm) (by have := cmu_le (sq := Real.sqrt) (n := n) hm; linarith)
        (cc_range hm).1 (cc_range hm).2
        (fun i => by have := (C29_weights_positive i).le; rwa [weight_ref] at this) ?_
      rw [e3]; unfold hsigOf; split <;> norm_num
    exact ⟨mirror_of_symm (symm_of_posSemidef hC), hC⟩
  rw [hsym.1] at u5
  have uC : (cmaUpdate lib s).C = C := by rcases u5 with h | h <;> exact h.2.1
  have hC : ∀ i j, C i j = _ := fun i j => by rw [e5, cov_entry, q2, q3, q4]
  have hpc : ∀ i, pc i = (1 - CmaRef.cc n (L / 2)) * s.pc i + h * Real.sqrt (CmaRef.cc n (L / 2) *
      (2 - CmaRef.cc n (L / 2)) * CmaRef.mueff (L / 2)) / s.sigma * (m i - s.xmean i) := fun i => by rw [e4]; rfl
  refine ⟨?_, by rw [u4, e6]; exact mul_pos hs.sigma (Real.exp_pos _), by rw [uC]; exact hsym.2⟩
  refine ⟨?_, ?_, ?_, ?_, ?_, ?_, ?_, ?_, ?_⟩
  all_goals simp only [distOf, u1, u2, u3, u4, uC]
  · intro i
    rw [e1, Finset.sum_apply]
    rfl
  · intro i
    rw [e2]
    unfold psNext
    simp only [Pi.add_apply, Pi.smul_apply, smul_eq_mul]
    ring
  · intro hn i
    rw [hpc, e3]
    unfold hsigOf
    rw [if_pos hn]
    ring
  · intro hn i
    rw [hpc, e3]
    unfold hsigOf
    rw [if_neg hn]
    ring
  · intro hn i j
    rw [hC, e3]
    unfold hsigOf
    rw [if_pos hn]
    ring
  · intro hn i j
    rw [hC, e3]
    unfold hsigOf
    rw [if_neg hn]
    ring
  · exact e6
  · intro hc
    rcases u5 with ⟨_, _, hB, hD, hI⟩ | ⟨hn, _⟩
    · rw [hB, hD, hI]
      exact ⟨factor_semidef hl hsym.2, fun hd => invsqrt_good hl (posDef_of_det hsym.2 hd)⟩
    · exact absurd hc hn
  · intro hc
    rcases u5 with ⟨hn, _⟩ | ⟨_, _, hB, hD, hI⟩
    · exact absurd hn hc
    · rw [hB, hD, hI]; exact ⟨rfl, rfl⟩

/-! ### the sampled points -/

variable [Zero F] [LinearOrder F] {lib : CmaLib ℝ F} {x0 sg : Vec ℝ n} {h : List (Ev ℝ (Vec ℝ n) F)} {s : CmaState ℝ F n L}

/-- the point evaluated next -/
def RefNext (lib : CmaLib ℝ F) (L : ℕ) (x0 sg : Vec ℝ n) (pts : List (Vec ℝ n × F)) (x : Vec ℝ n) : Prop :=
  ∃ d : CmaRef.Dist n, CmaRef.Follows L x0 sg pts (pts.length / L) d ∧
    x = if pts = [] then x0 else d.mean + d.sigma • d.factor.mulVec (lib.randn pts.length)

def G7 (lib : CmaLib ℝ F) (L : ℕ) (x0 sg : Vec ℝ n) (h : List (Ev ℝ (Vec ℝ n) F)) : Op ℝ (Vec ℝ n) F → Prop
  | .eval x _ => RefNext lib L x0 sg (evals h) x
  | _ => True

theorem selected_append {pts : List (Vec ℝ n × F)} {g : ℕ} {best : Fin (L / 2) → Vec ℝ n}
    (hc : CmaRef.Selected L pts g best) (l : List (Vec ℝ n × F)) : CmaRef.Selected L (pts ++ l) g best := by
  obtain ⟨sel, h1, pt, h2, h3⟩ := hc
  refine ⟨sel, h1, pt, fun k => ?_, h3⟩
  have hk := h2 k
  have hlt := (List.getElem?_eq_some_iff.1 hk).1
  rw [List.getElem?_append_left hlt]
  exact hk

theorem follows_append {pts : List (Vec ℝ n × F)} {g : ℕ} {d : CmaRef.Dist n}
    (hf : CmaRef.Follows L x0 sg pts g d) (l : List (Vec ℝ n × F)) : CmaRef.Follows L x0 sg (pts ++ l) g d := by
  induction hf with
  | start => exact .start
  | next _ hs hstep ih => exact .next ih (selected_append hs l) hstep

structure Samp7 (x0 sg : Vec ℝ n) (base : List (Vec ℝ n × F)) (g : ℕ) (done : List (Fin L))
    (h : List (Ev ℝ (Vec ℝ n) F)) (s : CmaState ℝ F n L) : Prop where
  good : Fair s
  count : s.counteval = (evals h).length
  baselen : base.length = L * g
  dist : CmaRef.Follows L x0 sg base g (distOf s)
  now : evals h = base ++ done.map (fun k => (s.arx k, s.fsim k))

theorem follows_zero {pts : List (Vec ℝ n × F)} {g : ℕ} {d : CmaRef.Dist n}
    (hf : CmaRef.Follows L x0 sg pts g d) (h0 : g = 0) : d.mean = x0 := by
  cases hf with
  | start => rfl
  | next => omega

theorem sample7 {base : List (Vec ℝ n × F)} {g : ℕ} (ks done : List (Fin L)) (hd : List.finRange L = done ++ ks)
    (hs : Samp7 x0 sg base g done h s) :
    (cmaSample lib ks s).wp (G7 lib L x0 sg) T2 (fun h' s' => Samp7 x0 sg base g (List.finRange L) h' s') h := by
  induction ks generalizing h s done with
  | nil => rw [List.append_nil] at hd; subst hd; exact hs
  | cons k ks ih =>
    have hlen : done.length < L := by
      have := congrArg List.length hd
      simp only [List.length_finRange, List.length_append, List.length_cons] at this
      omega
    have he : (evals h).length = L * g + done.length := by rw [hs.now, List.length_append, hs.baselen, List.length_map]
    have hcen : CmaRef.Follows L x0 sg (evals h) ((evals h).length / L) (distOf s) := by
      rw [he, Nat.mul_add_div (by omega), Nat.div_eq_of_lt hlen, hs.now]
      exact follows_append hs.dist _
    unfold cmaSample
    rw [Strat.wp_bind, Strat.wp_call]
    refine ⟨⟨_, hcen, ?_⟩, fun f _ => ?_⟩
    · by_cases h0 : evals h = []
      · rw [if_pos (by rw [hs.count, h0]; rfl), if_pos h0]
        refine follows_zero hcen ?_
        rw [h0]; simp
      · rw [if_neg (by rw [hs.count]; exact fun hh => h0 (List.length_eq_zero_iff.1 hh)), if_neg h0]
        simp only [distOf]
        rw [← Matrix.mulVec_mulVec, hs.count]
        congr 3
        funext i
        rw [Matrix.mulVec_diagonal]
    · refine ih (done ++ [k]) (by rw [hd]; simp) ⟨⟨hs.good.sigma, hs.good.C⟩, ?_, hs.baselen, hs.dist, ?_⟩
      · rw [evals_append]; simp [hs.count]
      · have hk : k ∉ done := by
          have := List.nodup_finRange L
          rw [hd] at this
          exact fun hm => (List.nodup_append.1 this).2.2 k hm k (by simp) rfl
        rw [evals_append, hs.now, List.map_append, List.append_assoc]
        congr 1
        rw [List.map_cons, List.map_nil]
        dsimp only
        rw [Function.update_self, Function.update_self]
        congr 1
        refine List.map_congr_left fun j hj => ?_
        have hjk : j ≠ k := fun hh => hk (hh ▸ hj)
        rw [Function.update_of_ne hjk, Function.update_of_ne hjk]

/-- at the head of the loop -/
def Head7 (x0 sg : Vec ℝ n) (h : List (Ev ℝ (Vec ℝ n) F)) (s : CmaState ℝ F n L) : Prop :=
  ∃ g, Samp7 x0 sg (evals h) g ([] : List (Fin L)) h s

theorem Head7.congr {h' : List (Ev ℝ (Vec ℝ n) F)} (hs : Head7 x0 sg h s) (he : evals h' = evals h) : Head7 x0 sg h' s := by
  obtain ⟨g, h1, h2, h3, h4, h5⟩ := hs
  exact ⟨g, h1, by rw [he]; exact h2, by rw [he]; exact h3, by rw [he]; exact h4, by simp⟩

theorem Samp7.next (hl : lib.Genuine) (hpow : lib.pow = fun x y => x ^ y) (hsort : lib.Sorts) (hL : 2 ≤ L)
    {base : List (Vec ℝ n × F)} {g : ℕ} (hs : Samp7 x0 sg base g (List.finRange L) h s) :
    Head7 x0 sg h (cmaUpdate lib (cmaSort lib s)) := by
  obtain ⟨q1, q2, q3, q4, q5, q6⟩ := par_ref n (L / 2)
  obtain ⟨u1, u2, u3, u4, u5, u6⟩ := update_fields (lib := lib) (s := cmaSort lib s)
  have hg : Fair (cmaSort lib s) := ⟨hs.good.sigma, hs.good.C⟩
  have hlen : (evals h).length = L * (g + 1) := by
    rw [hs.now, List.length_append, hs.baselen, List.length_map, List.length_finRange]; ring
  refine ⟨g + 1, (step_ref hl hpow hL hg).2, ?_, hlen, .next (best := cmaBest (cmaSort lib s)) (d := distOf s) ?_ ?_ ?_, by simp⟩
  · rw [u4]; exact hs.count
  · rw [hs.now]; exact follows_append hs.dist _
  · obtain ⟨sel, h1, h2, h3, h4⟩ := C29_best_half lib hsort s
    refine ⟨sel, h1, fun k => (s.arx k, s.fsim k), fun k => ?_, fun i j hij => h3 hij, fun k hk i => h4 k hk i, fun i => h2 i⟩
    rw [hs.now, ← hs.baselen, List.getElem?_append_right (by omega), Nat.add_sub_cancel_left]
    simp
  · rw [← hlen, ← hs.count]
    exact (step_ref hl hpow hL hg).1

theorem finish7 (hs : Head7 x0 sg h s) : (cmaFinish s).wp (G7 lib L x0 sg) T2 (fun h' _ => Head7 x0 sg h' s) h := by
  unfold cmaFinish
  rw [Strat.wp_bind, Strat.wp_call]
  refine ⟨trivial, fun b _ => ?_⟩
  cases b
  · simp only [Bool.false_eq_true, if_false]
    rw [Strat.wp_bind, Strat.wp_call]
    refine ⟨trivial, fun u _ => ?_⟩
    rw [Strat.wp_call]
    refine ⟨trivial, fun v _ => hs.congr ?_⟩
    rw [evals_append, evals_append, evals_append]
    simp [evals, Ev.evaluated]
  · simp only [if_true]
    refine (Strat.wp_call _ _ _).2 ⟨trivial, fun v _ => hs.congr ?_⟩
    rw [evals_append, evals_append]
    simp [evals, Ev.evaluated]

theorem loop7 (hl : lib.Genuine) (hpow : lib.pow = fun x y => x ^ y) (hsort : lib.Sorts) (hL : 2 ≤ L) (f : ℕ) (hs : Head7 x0 sg h s) :
    (cmaLoop lib f s).wp (G7 lib L x0 sg) T2 (fun _ _ => True) h := by
  induction f generalizing h s with
  | zero => exact (Strat.wp_fail _ _ _).2 trivial
  | succ f ih =>
    unfold cmaLoop
    rw [Strat.wp_bind, Strat.wp_call]
    refine ⟨trivial, fun b _ => ?_⟩
    cases b
    swap
    · exact trivial
    simp only [Bool.false_eq_true, if_false]
    obtain ⟨g, hg⟩ := hs.congr (h' := h ++ [⟨.readConv, false⟩]) (by rw [evals_append]; exact List.append_nil _)
    rw [Strat.wp_bind]
    refine Strat.wp_mono (sample7 _ [] (by simp) hg) fun h1 s1 hs1 => ?_
    rw [Strat.wp_bind]
    exact Strat.wp_mono (finish7 (hs1.next hl hpow hsort hL)) fun h3 s3 h => ih h

theorem run7 (hl : lib.Genuine) (hpow : lib.pow = fun x y => x ^ y) (hsort : lib.Sorts) (hL : 2 ≤ L) (fuel : ℕ) (hs : ∀ i, sg i ≠ 0)
    (hL0 : 0 < L) : (cmaRun lib hL0 fuel x0 sg).wp (G7 lib L x0 sg) T2 (fun _ _ => True) [] := by
  unfold cmaRun
  rw [Strat.wp_bind, Strat.wp_call]
  refine ⟨trivial, fun u _ => ?_⟩
  rw [Strat.wp_bind]
  have h0 : distOf (cmaInit hL0 x0 sg : CmaState ℝ F n L) = CmaRef.start x0 sg := by
    unfold distOf cmaInit CmaRef.start
    simp
  refine Strat.wp_mono (loop7 hl hpow hsort hL fuel ⟨0, ⟨one_pos, (Good.init hL0 x0 sg hs).C.posSemidef⟩, rfl, rfl, ?_, rfl⟩) fun h s _ => ?_
  · rw [h0]; exact .start
  rw [Strat.wp_bind, Strat.wp_call]
  exact ⟨trivial, fun _ _ => trivial⟩

end
end CMA
end QuOCS

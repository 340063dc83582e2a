/-
Properties of the GRAPE gradient: C46, C57.
-/
import Mathlib.Analysis.SpecialFunctions.Exponential
import Mathlib.Analysis.Matrix.Normed
import Mathlib.Analysis.Calculus.Deriv.Mul
import Mathlib.Analysis.Calculus.Deriv.Comp
import Mathlib.Topology.Algebra.Module.FiniteDimension
import Mathlib.Analysis.SpecialFunctions.Sqrt
import Mathlib.Analysis.SpecialFunctions.Trigonometric.Deriv
import Mathlib.Analysis.Calculus.Deriv.Pow
import Mathlib.Analysis.Calculus.Deriv.Inv
import Verif.Props.TimeEvolution

set_option linter.unusedSectionVars false
set_option linter.unusedVariables false

namespace QuOCS
open Matrix

variable {d n : ℕ} {U : List (CMat d)} {V : ℕ → CMat d} {tg : List ℝ} {tend : ℝ} {rho corho : List (CMat d)}
  {r0 c0 B : CMat d} {cast : CMat d → CMat d} {transfer : Bool}

/-! ### C46: forward and backward propagation -/

theorem overlap_step (X c r : CMat d) :
    ((X.conjTranspose * c * X)ᴴ * r).trace = (cᴴ * (X * r * Xᴴ)).trace := by
  rw [Matrix.conjTranspose_mul, Matrix.conjTranspose_mul, Matrix.conjTranspose_conjTranspose, Matrix.mul_assoc,
    Matrix.trace_mul_comm, Matrix.mul_assoc, Matrix.mul_assoc, Matrix.mul_assoc]

theorem fwd_eq (V : ℕ → CMat d) (r0 : CMat d) (t : ℕ) : TE.fwd id true V r0 t = ordered V t * r0 * (ordered V t)ᴴ := by
  induction t with
  | zero => simp [TE.fwd, ordered]
  | succ t ih =>
      rw [TE.fwd, ih, ordered, Matrix.conjTranspose_mul]
      simp only [TE.fstep, if_true, id, Matrix.mul_assoc]

theorem ordered_succ' (V : ℕ → CMat d) (m : ℕ) : ordered V (m + 1) = ordered (fun i => V (1 + i)) m * V 0 := by
  rw [Nat.add_comm, TE.ordered_add]
  simp [ordered]

/-- the propagator of the last `s` of `n` slices -/
def tailProp (V : ℕ → CMat d) (n s : ℕ) : CMat d := ordered (fun i => V (n - s + i)) s

theorem tailProp_succ (V : ℕ → CMat d) {n s : ℕ} (h : s < n) : tailProp V n (s + 1) = tailProp V n s * V (n - (s + 1)) := by
  unfold tailProp
  rw [ordered_succ']
  congr 1
  refine TE.ordered_congr fun i _ => ?_
  congr 1
  omega

theorem bwd_eq (V : ℕ → CMat d) (n : ℕ) (c0 : CMat d) : ∀ s ≤ n,
    TE.bwd id true V n c0 s = (tailProp V n s)ᴴ * c0 * tailProp V n s := by
  intro s
  induction s with
  | zero => intro _; simp [TE.bwd, tailProp, ordered]
  | succ s ih =>
      intro hs
      rw [TE.bwd, ih (by omega), tailProp_succ V (by omega), Matrix.conjTranspose_mul]
      simp only [TE.bstep, if_true, id, Matrix.mul_assoc]

theorem tail_mul_head (V : ℕ → CMat d) {n t : ℕ} (h : t ≤ n) : tailProp V n (n - t) * ordered V t = ordered V n := by
  unfold tailProp
  have := TE.ordered_add V t (n - t)
  rw [show t + (n - t) = n by omega] at this
  rw [this]
  congr 1
  refine TE.ordered_congr fun i _ => ?_
  congr 1
  omega

/-- **C46.** For a state transfer and complex arrays: for all propagators (unitary or not), states and numbers of slices, the
overlap of the propagated state and the back-propagated target is the same at every time slice, namely the overlap of
the target with the initial state evolved by all propagators. -/
theorem C46_overlap_is_constant (htg : tg.getLast? = some tend) (hU : ∀ t < n, U[t]? = some (V t)) (initial target : CMat d) :
    ∃ g rho corho, grapeGradient id true tg B n U (grapeRhoInit id n initial) (grapeCorhoInit id n target) = .ok (g, rho, corho) ∧
      ∀ t ≤ n, ∃ r c, rho[t]? = some r ∧ corho[t]? = some c ∧
        (cᴴ * r).trace = (targetᴴ * (ordered V n * initial * (ordered V n)ᴴ)).trace := by
  obtain ⟨g, rho', corho', h1, h2, h3, h4, h5, -⟩ := TE.gradient_ok (cast := id) (transfer := true) (Bm := B) htg hU
    (rho := grapeRhoInit id n initial) (corho := grapeCorhoInit id n target) (r0 := initial) (c0 := target)
    (by simp [grapeRhoInit]) (by simp [grapeCorhoInit]) (by simp [grapeRhoInit]) (by simp [grapeCorhoInit])
  refine ⟨g, rho', corho', h1, fun t ht => ⟨_, _, h4 t ht, h5 t ht, ?_⟩⟩
  rw [fwd_eq, bwd_eq V n target _ (by omega), overlap_step, ← tail_mul_head V ht, Matrix.conjTranspose_mul]
  simp only [Matrix.mul_assoc]

/-- **C46.** The same in every later call: the two storages are rewritten completely, only their first and last entry count,
and these are never changed. -/
theorem C46_independent_of_earlier_calls (htg : tg.getLast? = some tend) (hU : ∀ t < n, U[t]? = some (V t))
    {rho2 corho2 : List (CMat d)}
    (hr : rho.length = n + 1) (hc : corho.length = n + 1) (hr2 : rho2.length = n + 1) (hc2 : corho2.length = n + 1)
    (h0 : rho[0]? = rho2[0]?) (hn : corho[n]? = corho2[n]?) :
    grapeGradient cast transfer tg B n U rho corho = grapeGradient cast transfer tg B n U rho2 corho2 ∧
      ∃ g r c, grapeGradient cast transfer tg B n U rho corho = .ok (g, r, c) ∧ r.length = n + 1 ∧ c.length = n + 1 ∧
        r[0]? = rho[0]? ∧ c[n]? = corho[n]? := by
  obtain ⟨r0, e0⟩ : ∃ r0, rho[0]? = some r0 := ⟨_, List.getElem?_eq_getElem (by omega)⟩
  obtain ⟨c0, e1⟩ : ∃ c0, corho[n]? = some c0 := ⟨_, List.getElem?_eq_getElem (by omega)⟩
  obtain ⟨g, r, c, h1, h2, h3, h4, h5, h6, h7⟩ := TE.gradient_ok (cast := cast) (transfer := transfer) (Bm := B) htg hU
    (rho := rho) (corho := corho) (by omega) (by omega) e0 e1
  obtain ⟨g', r', c', h1', h2', h3', h4', h5', h6', h7'⟩ := TE.gradient_ok (cast := cast) (transfer := transfer) (Bm := B) htg hU
    (rho := rho2) (corho := corho2) (by omega) (by omega) (h0 ▸ e0) (hn ▸ e1)
  have ext : ∀ {α : Type} {k : ℕ} {a b : List α}, a.length = k → b.length = k → (∀ t < k, a[t]? = b[t]?) → a = b :=
    fun {α k a b} ha hb h => List.ext_getElem? fun t => by
      by_cases ht : t < k
      · exact h t ht
      · rw [List.getElem?_eq_none (by omega), List.getElem?_eq_none (by omega)]
  refine ⟨?_, g, r, c, h1, by omega, by omega, ?_, ?_⟩
  · rw [h1, h1', ext h6 h6' fun t ht => by rw [h7 t ht, h7' t ht],
      ext (h2.trans hr) (h2'.trans hr2) fun t ht => by rw [h4 t (by omega), h4' t (by omega)],
      ext (h3.trans hc) (h3'.trans hc2) fun t ht => by rw [h5 t (by omega), h5' t (by omega)]]
  · rw [h4 0 (by omega), e0]; rfl
  · rw [h5 n le_rfl, e1, Nat.sub_self]; rfl

/-- the hypotheses are met -/
example : ([1, 2] : List ℝ).getLast? = some 2 ∧
    ∀ t < 2, ([!![0, 1; 1, 0], !![Complex.I, 0; 0, 1]] : List (CMat 2))[t]? =
      some (if t = 0 then !![0, 1; 1, 0] else !![Complex.I, 0; 0, 1]) := by
  refine ⟨rfl, fun t ht => ?_⟩
  interval_cases t <;> rfl

/-- the conversion to a real array -/
def dropImag (M : CMat d) : CMat d := M.map fun z => (z.re : ℂ)

/-- Violation found: for a target state given as a real array the imaginary parts of all stored states are dropped. Two
slices with the propagator `diag(1, i)` rotate the real state `(1, 1)/√2` into one orthogonal to it, but the stored overlap
with the (real) target `(1, 1)/√2` is 1/2. -/
theorem C46_real_target_loses_imaginary_parts :
    let P : CMat 2 := !![1, 0; 0, Complex.I]
    let psi : CMat 2 := !![1 / 2, 1 / 2; 1 / 2, 1 / 2]
    ∃ g rho corho, grapeGradient dropImag true [1, 2] (0 : CMat 2) 2 [P, P] (grapeRhoInit dropImag 2 psi)
        (grapeCorhoInit dropImag 2 psi) = .ok (g, rho, corho) ∧
      (psiᴴ * (ordered (fun _ => P) 2 * psi * (ordered (fun _ => P) 2)ᴴ)).trace = 0 ∧
      ∃ r c, rho[2]? = some r ∧ corho[2]? = some c ∧ (cᴴ * r).trace = 1 / 2 := by
  intro P psi
  have hpsi : dropImag psi = psi := by
    ext i j; fin_cases i <;> fin_cases j <;> simp [dropImag, psi]
  have hP : Pᴴ = !![1, 0; 0, -Complex.I] := by
    ext i j; fin_cases i <;> fin_cases j <;> simp [P]
  have hpsi' : psiᴴ = psi := by
    ext i j; fin_cases i <;> fin_cases j <;> simp [psi]
  have m1 : P * psi * Pᴴ = !![1 / 2, -Complex.I / 2; Complex.I / 2, 1 / 2] := by
    rw [hP]
    simp only [P, psi, Matrix.mul_fin_two]
    ext i j; fin_cases i <;> fin_cases j <;> simp <;> ring_nf <;> simp <;> norm_num
  have m2 : P * !![1 / 2, 0; 0, 1 / 2] * Pᴴ = !![1 / 2, 0; 0, 1 / 2] := by
    rw [hP]
    simp only [P, Matrix.mul_fin_two]
    ext i j; fin_cases i <;> fin_cases j <;> simp <;> ring_nf <;> simp <;> norm_num
  have m3 : ordered (fun _ => P) 2 * psi * (ordered (fun _ => P) 2)ᴴ = !![1 / 2, -1 / 2; -1 / 2, 1 / 2] := by
    have : ordered (fun _ => P) 2 * psi * (ordered (fun _ => P) 2)ᴴ = P * (P * psi * Pᴴ) * Pᴴ := by
      simp only [ordered, Matrix.mul_one, Matrix.conjTranspose_mul, Matrix.mul_assoc]
    rw [this, m1, hP]
    simp only [P, Matrix.mul_fin_two]
    ext i j; fin_cases i <;> fin_cases j <;> simp <;> ring_nf <;> simp <;> norm_num
  have e1 : dropImag (P * psi * Pᴴ) = !![1 / 2, 0; 0, 1 / 2] := by
    rw [m1]
    ext i j; fin_cases i <;> fin_cases j <;> simp [dropImag]
  have e2 : dropImag (P * !![1 / 2, 0; 0, 1 / 2] * Pᴴ) = !![1 / 2, 0; 0, 1 / 2] := by
    rw [m2]
    ext i j; fin_cases i <;> fin_cases j <;> simp [dropImag]
  obtain ⟨g, rho', corho', h1, h2, h3, h4, h5, -⟩ := TE.gradient_ok (cast := dropImag) (transfer := true) (Bm := (0 : CMat 2))
    (tg := [1, 2]) (tend := 2) rfl (U := [P, P]) (V := fun _ => P) (n := 2) (fun t ht => by interval_cases t <;> rfl)
    (rho := grapeRhoInit dropImag 2 psi) (corho := grapeCorhoInit dropImag 2 psi) (r0 := psi) (c0 := psi)
    (by simp [grapeRhoInit]) (by simp [grapeCorhoInit]) (by simp [grapeRhoInit, hpsi]) (by simp [grapeCorhoInit, hpsi])
  refine ⟨g, rho', corho', h1, ?_, _, _, h4 2 le_rfl, h5 2 le_rfl, ?_⟩
  · rw [m3, hpsi']
    simp only [psi, Matrix.mul_fin_two, Matrix.trace_fin_two_of]
    norm_num
  · have : TE.fwd dropImag true (fun _ => P) psi 2 = !![1 / 2, 0; 0, 1 / 2] := by
      simp only [TE.fwd, TE.fstep, if_true]
      rw [e1, e2]
    rw [this]
    show (psiᴴ * _).trace = _
    rw [hpsi']
    simp only [psi, Matrix.mul_fin_two, Matrix.trace_fin_two_of]
    norm_num

/-! ### C57: the gradient -/

/-- the overlap of the target with the initial state evolved by `E` -/
noncomputable def overlap (target initial E : CMat d) : ℝ := ((targetᴴ * (E * initial * Eᴴ)).trace).re

theorem hasDerivAt_sandwich_aux {𝔸 : Type} [NormedRing 𝔸] [NormedAlgebra ℝ 𝔸] [CompleteSpace 𝔸] (L : 𝔸 →L[ℝ] ℝ)
    (C R Y Z : 𝔸) : HasDerivAt (fun e : ℝ => L (C * (NormedSpace.exp (e • Y) * R * NormedSpace.exp (e • Z))))
      (L (C * (Y * R + R * Z))) 0 := by
  have h1 : ∀ X : 𝔸, HasDerivAt (fun e : ℝ => NormedSpace.exp (e • X)) X 0 := fun X => by
    have := hasDerivAt_exp_smul_const (𝕂 := ℝ) X 0
    rw [zero_smul, NormedSpace.exp_zero, one_mul] at this
    exact this
  have h4 := (((h1 Y).mul_const R).mul (h1 Z)).const_mul C
  simp only [zero_smul, NormedSpace.exp_zero, mul_one, one_mul] at h4
  exact L.hasFDerivAt.comp_hasDerivAt (0 : ℝ) h4

section
attribute [local instance] Matrix.linftyOpNormedRing Matrix.linftyOpNormedAlgebra

theorem hasDerivAt_sandwich (C R Y : CMat d) :
    HasDerivAt (fun e : ℝ => ((Cᴴ * (NormedSpace.exp (e • Y) * R * (NormedSpace.exp (e • Y))ᴴ)).trace).re)
      ((Cᴴ * (Y * R + R * Yᴴ)).trace).re 0 := by
  have h3 : ∀ e : ℝ, (NormedSpace.exp (e • Y))ᴴ = NormedSpace.exp (e • Yᴴ) := by
    intro e
    rw [← Matrix.exp_conjTranspose, Matrix.conjTranspose_smul]
    simp
  let L : CMat d →ₗ[ℝ] ℝ :=
    { toFun := fun M => M.trace.re
      map_add' := fun a b => by simp
      map_smul' := fun a b => by simp [Matrix.trace_smul] }
  simp only [h3]
  exact hasDerivAt_sandwich_aux (LinearMap.toContinuousLinearMap L) Cᴴ R Y Yᴴ

end

theorem gradient_entry {C R : CMat d} (hB : Bᴴ = B) (dt : ℝ) :
    ((Cᴴ * (((-Complex.I * dt) • B) * R + R * ((-Complex.I * dt) • B)ᴴ)).trace).re =
      -((Matrix.trace ((Complex.I * dt) • Cᴴ * commutator B R)).re) := by
  rw [Matrix.conjTranspose_smul, hB]
  have h1 : star (-Complex.I * (dt : ℂ)) = Complex.I * dt := by simp [Complex.conj_ofReal]
  rw [h1]
  unfold commutator
  rw [← Complex.neg_re, ← Matrix.trace_neg]
  congr 2
  rw [Matrix.smul_mul, Matrix.mul_smul, Matrix.mul_add, Matrix.mul_smul, Matrix.mul_smul, Matrix.smul_mul, Matrix.mul_sub, smul_sub,
    neg_mul, neg_smul]
  abel

/-- the overlap with a matrix `X` inserted before slice `t` -/
theorem overlap_insert (V : ℕ → CMat d) (target initial X : CMat d) {t : ℕ} (ht : t ≤ n) :
    overlap target initial (ordered (fun i => V (t + i)) (n - t) * X * ordered V t) =
      (((TE.bwd id true V n target (n - t))ᴴ * (X * TE.fwd id true V initial t * Xᴴ)).trace).re := by
  have hw : tailProp V n (n - t) = ordered (fun i => V (t + i)) (n - t) := by
    unfold tailProp
    refine TE.ordered_congr fun i _ => ?_
    congr 1; omega
  rw [fwd_eq, bwd_eq V n target _ (by omega), overlap_step, hw]
  unfold overlap
  simp only [Matrix.conjTranspose_mul, Matrix.mul_assoc]

/-- **C57** (for a control impulse). For a state transfer and complex arrays, entry `t` of the gradient is minus the exact
derivative of the overlap with the target when the control Hamiltonian acts with strength `e` for the time of one slice
immediately before slice `t`. Missing: the derivative with respect to the amplitude within the slice, which is different
when control and drift do not commute (`C57_not_the_derivative`). -/
theorem C57_gradient_partial (htg : tg.getLast? = some tend) (hU : ∀ t < n, U[t]? = some (V t)) (initial target : CMat d)
    (hB : Bᴴ = B) :
    ∃ g rho corho, grapeGradient id true tg B n U (grapeRhoInit id n initial) (grapeCorhoInit id n target) = .ok (g, rho, corho) ∧
      g.length = n ∧ ∀ t < n, ∃ gt, g[t]? = some gt ∧
        HasDerivAt (fun e : ℝ => overlap target initial
          (ordered (fun i => V (t + i)) (n - t) *
            NormedSpace.exp (e • ((-Complex.I * ((tend / tg.length : ℝ) : ℂ)) • B)) * ordered V t)) (-gt) 0 := by
  obtain ⟨g, rho', corho', h1, h2, h3, h4, h5, h6, h7⟩ := TE.gradient_ok (cast := id) (transfer := true) (Bm := B) htg hU
    (rho := grapeRhoInit id n initial) (corho := grapeCorhoInit id n target) (r0 := initial) (c0 := target)
    (by simp [grapeRhoInit]) (by simp [grapeCorhoInit]) (by simp [grapeRhoInit]) (by simp [grapeCorhoInit])
  refine ⟨g, rho', corho', h1, h6, fun t ht => ⟨_, h7 t ht, ?_⟩⟩
  rw [if_pos rfl, ← gradient_entry hB]
  simp only [overlap_insert V target initial _ ht.le]
  exact hasDerivAt_sandwich _ _ _

/-- **C57** (if the control commutes with the drift). With the propagators of `pw_evolution` for one pulse, entry `t` of the
gradient is minus the exact derivative of the overlap with the target with respect to the amplitude of slice `t`. -/
theorem C57_commuting_gradient_partial {A : CMat d} {row : List ℂ} (htg : tg.getLast? = some tend) (hn : row.length = n)
    (initial target : CMat d) (hB : Bᴴ = B) (hc : A * B = B * A) {store : List (CMat d)} (hs : store.length = n) :
    ∃ U g rho corho, pwEvolution NormedSpace.exp store [row] A [B] n (tend / tg.length) = .ok U ∧
      grapeGradient id true tg B n U (grapeRhoInit id n initial) (grapeCorhoInit id n target) = .ok (g, rho, corho) ∧
      g.length = n ∧ ∀ t < n, ∃ (gt : ℝ) (E : ℝ → CMat d), g[t]? = some gt ∧
        (∀ e : ℝ, pwFinalEvolution NormedSpace.exp [row.set t (row.getD t 0 + e)] A [B] n (tend / tg.length) 1 = .ok (E e)) ∧
        HasDerivAt (fun e : ℝ => overlap target initial (E e)) (-gt) 0 := by
  have shape : ∀ row' : List ℂ, row'.length = n → HasShape [row'] [B].length n := fun row' h k hk => by
    obtain rfl : k = 0 := by simpa using hk
    exact ⟨row', rfl, by omega⟩
  obtain ⟨dt, hdt⟩ : ∃ dt, dt = tend / (tg.length : ℝ) := ⟨_, rfl⟩
  obtain ⟨U, u1, u2, u3, -⟩ := TE.store_ok (expm := NormedSpace.exp) (A := A) (dt := dt) (shape row hn) store (by omega)
  obtain ⟨g, rho', corho', h1, h2, h3⟩ := C57_gradient_partial (B := B) htg u3 initial target hB
  rw [← hdt] at h3 ⊢
  refine ⟨U, g, rho', corho', u1, h1, h2, fun t ht => ?_⟩
  obtain ⟨gt, h4, h5⟩ := h3 t ht
  refine ⟨gt, fun e => _, h4, fun e => TE.final_ok (shape _ (by rw [List.length_set, hn])) 1, ?_⟩
  have key : ∀ e : ℝ, ordered (TE.P NormedSpace.exp [row.set t (row.getD t 0 + e)] A [B] dt) n * 1 =
      ordered (fun i => TE.P NormedSpace.exp [row] A [B] dt (t + i)) (n - t) *
        NormedSpace.exp (e • ((-Complex.I * (dt : ℂ)) • B)) * ordered (TE.P NormedSpace.exp [row] A [B] dt) t := by
    intro e
    have hne : ∀ i, i ≠ t → TE.P NormedSpace.exp [row.set t (row.getD t 0 + e)] A [B] dt i = TE.P NormedSpace.exp [row] A [B] dt i := by
      intro i hi
      unfold TE.P hamiltonian
      congr 3
      refine Finset.sum_congr rfl fun k _ => ?_
      congr 1
      have : (k : ℕ) = 0 := Nat.lt_one_iff.1 k.2
      rw [this]
      show (row.set t (row.getD t 0 + e)).getD i 0 = row.getD i 0
      rw [List.getD_eq_getElem?_getD, List.getD_eq_getElem?_getD (l := row) (i := i), List.getElem?_set_ne (Ne.symm hi)]
    have hat : TE.P NormedSpace.exp [row.set t (row.getD t 0 + e)] A [B] dt t =
        TE.P NormedSpace.exp [row] A [B] dt t * NormedSpace.exp (e • ((-Complex.I * (dt : ℂ)) • B)) := by
      have ham : ∀ row' : List ℂ, hamiltonian [row'] A [B] t = A + row'.getD t 0 • B := fun row' => by
        unfold hamiltonian
        rw [show (∑ k : Fin [B].length, amplitude [row'] k t • [B][k]) = ∑ k : Fin 1, amplitude [row'] k t • [B][k] from rfl,
          Fin.sum_univ_one]
        rfl
      unfold TE.P
      rw [ham, ham]
      have hcomm : Commute ((-Complex.I * (dt : ℂ)) • (A + row.getD t 0 • B)) (e • ((-Complex.I * (dt : ℂ)) • B)) := by
        refine Commute.smul_left (Commute.smul_right (Commute.smul_right ?_ _) _) _
        exact Commute.add_left hc ((Commute.refl B).smul_left _)
      rw [← Matrix.exp_add_of_commute _ _ hcomm]
      congr 1
      have : (row.set t (row.getD t 0 + e)).getD t 0 = row.getD t 0 + e := by
        rw [List.getD_eq_getElem?_getD, List.getElem?_set_self (by omega)]; rfl
      rw [this, add_smul, ← add_assoc, smul_add _ (A + _)]
      congr 1
      rw [smul_comm]
      rfl
    obtain ⟨m, rfl⟩ : ∃ m, n = t + (m + 1) := ⟨n - t - 1, by omega⟩
    rw [Matrix.mul_one, TE.ordered_add, ordered_succ', show t + (m + 1) - t = m + 1 by omega, ordered_succ']
    simp only [Nat.add_zero]
    rw [hat, TE.ordered_congr (P := TE.P NormedSpace.exp [row.set t (row.getD t 0 + e)] A [B] dt)
      (Q := TE.P NormedSpace.exp [row] A [B] dt) fun i hi => hne i (by omega),
      TE.ordered_congr (Q := fun i => TE.P NormedSpace.exp [row] A [B] dt (t + (1 + i))) fun i hi => hne _ (by omega)]
    simp only [Matrix.mul_assoc]
  simp only [key]
  exact h5

/-- the hypotheses are met: two commuting Hermitian matrices, two slices -/
example : (!![1, 0; 0, -1] : CMat 2)ᴴ = !![1, 0; 0, -1] ∧
    (!![2, 0; 0, 3] : CMat 2) * !![1, 0; 0, -1] = !![1, 0; 0, -1] * !![2, 0; 0, 3] ∧
    ([1, 2] : List ℝ).getLast? = some 2 ∧ ([0.5, 0.25] : List ℂ).length = 2 := by
  refine ⟨?_, ?_, rfl, rfl⟩
  · ext i j; fin_cases i <;> fin_cases j <;> simp
  · simp

/-- **C57.** The gradient always has one entry per slice of the first pulse; for another system type all entries are zero,
whatever the controls are. -/
theorem C57_other_system_type_has_zero_gradient (htg : tg.getLast? = some tend) (hU : ∀ t < n, U[t]? = some (V t))
    (initial target : CMat d) :
    ∃ rho corho, grapeGradient cast false tg B n U (grapeRhoInit cast n initial) (grapeCorhoInit cast n target) =
      .ok (List.replicate n 0, rho, corho) := by
  obtain ⟨g, rho', corho', h1, h2, h3, h4, h5, h6, h7⟩ := TE.gradient_ok (cast := cast) (transfer := false) (Bm := B) htg hU
    (rho := grapeRhoInit cast n initial) (corho := grapeCorhoInit cast n target) (r0 := cast initial) (c0 := cast target)
    (by simp [grapeRhoInit]) (by simp [grapeCorhoInit]) (by simp [grapeRhoInit]) (by simp [grapeCorhoInit])
  refine ⟨rho', corho', ?_⟩
  rw [h1]
  congr 2
  refine List.ext_getElem? fun t => ?_
  by_cases ht : t < n
  · rw [h7 t ht]; simp [ht]
  · rw [List.getElem?_eq_none (by omega), List.getElem?_eq_none (by simp; omega)]

/-! #### The gradient is not the derivative with respect to the amplitude -/

section
attribute [local instance] Matrix.linftyOpNormedRing Matrix.linftyOpNormedAlgebra

/-- the algebra homomorphism given by an idempotent -/
def idemHom (P : CMat d) (hP : P * P = P) : ℂ × ℂ →+* CMat d where
  toFun z := z.1 • P + z.2 • (1 - P)
  map_one' := by simp
  map_mul' a b := by
    have h1 : P * (1 - P) = 0 := by rw [Matrix.mul_sub, Matrix.mul_one, hP, sub_self]
    have h2 : (1 - P) * P = 0 := by rw [Matrix.sub_mul, Matrix.one_mul, hP, sub_self]
    have h3 : (1 - P) * (1 - P) = 1 - P := by rw [Matrix.sub_mul, Matrix.one_mul, h1, sub_zero]
    simp only [Prod.fst_mul, Prod.snd_mul, Matrix.add_mul, Matrix.mul_add, Matrix.smul_mul, Matrix.mul_smul, h1, h2, h3, hP,
      smul_zero, add_zero, zero_add, smul_smul]
    rw [mul_comm b.1, mul_comm b.2]
  map_zero' := by simp
  map_add' a b := by
    simp only [Prod.fst_add, Prod.snd_add, add_smul]; abel

theorem exp_involution {M : CMat d} {r : ℝ} (hr : r ≠ 0) (hM : M * M = ((r : ℂ) ^ 2) • (1 : CMat d)) :
    NormedSpace.exp ((-Complex.I) • M) = (Real.cos r : ℂ) • (1 : CMat d) + (-(Complex.I * ((Real.sin r / r : ℝ) : ℂ))) • M := by
  have hr' : (r : ℂ) ≠ 0 := by exact_mod_cast hr
  let P : CMat d := (1 / 2 : ℂ) • (1 + (1 / (r : ℂ)) • M)
  have hP : P * P = P := by
    simp only [P, Matrix.smul_mul, Matrix.mul_smul, Matrix.add_mul, Matrix.mul_add, Matrix.one_mul, Matrix.mul_one, hM]
    match_scalars <;> field_simp <;> ring
  have hc : Continuous (idemHom P hP) := by
    show Continuous fun z : ℂ × ℂ => z.1 • P + z.2 • (1 - P)
    fun_prop
  have hx : idemHom P hP (-Complex.I * r, Complex.I * r) = (-Complex.I) • M := by
    show (-Complex.I * r) • P + (Complex.I * r) • (1 - P) = _
    simp only [P]
    match_scalars <;> field_simp <;> ring
  rw [← hx]
  refine (NormedSpace.map_exp (idemHom P hP) hc _).symm.trans ?_
  show (NormedSpace.exp (-Complex.I * (r : ℂ), Complex.I * (r : ℂ))).1 • P + (NormedSpace.exp (-Complex.I * (r : ℂ), Complex.I * (r : ℂ))).2 • (1 - P) = _
  rw [Prod.fst_exp, Prod.snd_exp, ← Complex.exp_eq_exp_ℂ]
  have e1 : Complex.exp (-Complex.I * r) = Complex.cos r - Complex.sin r * Complex.I := by
    rw [show -Complex.I * (r : ℂ) = (-(r : ℂ)) * Complex.I by ring, Complex.exp_mul_I, Complex.cos_neg, Complex.sin_neg]; ring
  have e2 : Complex.exp (Complex.I * r) = Complex.cos r + Complex.sin r * Complex.I := by
    rw [mul_comm, Complex.exp_mul_I]
  rw [e1, e2]
  push_cast
  simp only [P]
  match_scalars <;> field_simp <;> ring

end

/-- drift of the counterexample: `2 pi sigma_x` -/
noncomputable def exDrift : CMat 2 := !![0, 2 * Real.pi; 2 * Real.pi, 0]
/-- control of the counterexample: `sigma_z` -/
def exCtl : CMat 2 := !![1, 0; 0, -1]
/-- initial state of the counterexample -/
noncomputable def exInit : CMat 2 := !![1 / 2, 1 / 2; 1 / 2, 1 / 2]
/-- target state of the counterexample -/
noncomputable def exTarget : CMat 2 := !![1 / 2, -Complex.I / 2; Complex.I / 2, 1 / 2]

theorem exOverlap (c s e : ℝ) :
    overlap exTarget exInit ((c : ℂ) • (1 : CMat 2) + (-(Complex.I * (s : ℂ))) • (exDrift + (e : ℂ) • exCtl)) =
      c ^ 2 / 2 + c * s * e + s ^ 2 * ((2 * Real.pi) ^ 2 + e ^ 2) / 2 := by
  have h1 : (c : ℂ) • (1 : CMat 2) + (-(Complex.I * (s : ℂ))) • (exDrift + (e : ℂ) • exCtl) =
      !![c - Complex.I * s * e, -(Complex.I * s * (2 * Real.pi)); -(Complex.I * s * (2 * Real.pi)), c + Complex.I * s * e] := by
    ext i j; fin_cases i <;> fin_cases j <;> simp [exDrift, exCtl] <;> ring
  have h2 : (!![c - Complex.I * s * e, -(Complex.I * s * (2 * Real.pi)); -(Complex.I * s * (2 * Real.pi)), c + Complex.I * s * e] :
      CMat 2)ᴴ = !![c + Complex.I * s * e, Complex.I * s * (2 * Real.pi); Complex.I * s * (2 * Real.pi), c - Complex.I * s * e] := by
    ext i j; fin_cases i <;> fin_cases j <;> simp [Complex.conj_ofReal] <;> ring
  have h3 : exTargetᴴ = exTarget := by
    ext i j; fin_cases i <;> fin_cases j <;> simp [exTarget]
  unfold overlap
  rw [h1, h2, h3]
  simp only [exTarget, exInit, Matrix.mul_fin_two, Matrix.trace_fin_two_of]
  simp [pow_two]
  ring

theorem exSquare (e : ℝ) : (exDrift + (e : ℂ) • exCtl) * (exDrift + (e : ℂ) • exCtl) =
    (((Real.sqrt ((2 * Real.pi) ^ 2 + e ^ 2) : ℝ) : ℂ) ^ 2) • (1 : CMat 2) := by
  have h : (((Real.sqrt ((2 * Real.pi) ^ 2 + e ^ 2) : ℝ) : ℂ) ^ 2) = (2 * Real.pi) ^ 2 + e ^ 2 := by
    rw [← Complex.ofReal_pow, Real.sq_sqrt (by positivity)]; push_cast; ring
  have h1 : exDrift + (e : ℂ) • exCtl = !![(e : ℂ), 2 * Real.pi; 2 * Real.pi, -e] := by
    ext i j; fin_cases i <;> fin_cases j <;> simp [exDrift, exCtl]
  rw [h, h1, Matrix.mul_fin_two]
  ext i j; fin_cases i <;> fin_cases j <;> simp <;> ring

theorem exSqrt_pos (e : ℝ) : 0 < Real.sqrt ((2 * Real.pi) ^ 2 + e ^ 2) :=
  Real.sqrt_pos.2 (by have := Real.pi_pos; positivity)

theorem exExp (e : ℝ) : NormedSpace.exp ((-Complex.I) • (exDrift + (e : ℂ) • exCtl)) =
    (Real.cos (Real.sqrt ((2 * Real.pi) ^ 2 + e ^ 2)) : ℂ) • (1 : CMat 2) +
      (-(Complex.I * ((Real.sin (Real.sqrt ((2 * Real.pi) ^ 2 + e ^ 2)) / Real.sqrt ((2 * Real.pi) ^ 2 + e ^ 2) : ℝ) : ℂ))) •
        (exDrift + (e : ℂ) • exCtl) :=
  exp_involution (exSqrt_pos e).ne' (exSquare e)

theorem exDeriv : HasDerivAt (fun e : ℝ => overlap exTarget exInit (NormedSpace.exp ((-Complex.I) • (exDrift + (e : ℂ) • exCtl)))) 0 0 := by
  simp only [exExp, exOverlap]
  have hpi := Real.pi_pos
  have r0 : Real.sqrt ((2 * Real.pi) ^ 2 + (0 : ℝ) ^ 2) = 2 * Real.pi := by
    rw [zero_pow two_ne_zero, add_zero, Real.sqrt_sq (by positivity)]
  have hr : HasDerivAt (fun e : ℝ => Real.sqrt ((2 * Real.pi) ^ 2 + e ^ 2)) 0 0 := by
    have := (((hasDerivAt_id (0 : ℝ)).pow 2).const_add ((2 * Real.pi) ^ 2)).sqrt (by have := exSqrt_pos 0; exact (Real.sqrt_pos.1 this).ne')
    simpa using this
  have hc := hr.cos
  have hs := hr.sin.div hr (exSqrt_pos 0).ne'
  have hid := hasDerivAt_id (0 : ℝ)
  have := ((hc.pow 2).div_const 2).add ((hc.mul hs).mul hid) |>.add
    ((((hs.pow 2).mul (((hasDerivAt_id (0 : ℝ)).pow 2).const_add ((2 * Real.pi) ^ 2)))).div_const 2)
  refine this.congr_deriv ?_
  simp
  right; left
  rw [Real.sqrt_sq (by positivity), Real.sin_two_pi]

/-- Violation found: when drift and control do not commute the gradient is not the derivative with respect to the
amplitude. For the drift `2 pi sigma_x`, the control `sigma_z`, one slice of duration 1 and amplitude 0 the derivative of
the overlap is 0 but the gradient entry is -1. -/
theorem C57_not_the_derivative :
    ∃ U rho corho, pwEvolution NormedSpace.exp [0] [[0]] exDrift [exCtl] 1 1 = .ok U ∧
      grapeGradient id true [1] exCtl 1 U (grapeRhoInit id 1 exInit) (grapeCorhoInit id 1 exTarget) = .ok ([-1], rho, corho) ∧
      ∃ E : ℝ → CMat 2, (∀ e : ℝ, pwFinalEvolution NormedSpace.exp [[0 + (e : ℂ)]] exDrift [exCtl] 1 1 1 = .ok (E e)) ∧
        HasDerivAt (fun e : ℝ => overlap exTarget exInit (E e)) 0 0 := by
  have shape : ∀ z : ℂ, HasShape [[z]] [exCtl].length 1 := fun z k hk => by
    obtain rfl : k = 0 := by simpa using hk
    exact ⟨[z], rfl, le_rfl⟩
  have ham : ∀ z : ℂ, hamiltonian [[z]] exDrift [exCtl] 0 = exDrift + z • exCtl := fun z => by
    unfold hamiltonian
    rw [show (∑ k : Fin [exCtl].length, amplitude [[z]] k 0 • [exCtl][k]) = ∑ k : Fin 1, amplitude [[z]] k 0 • [exCtl][k] from rfl,
      Fin.sum_univ_one]
    rfl
  have hP : ∀ z : ℂ, TE.P NormedSpace.exp [[z]] exDrift [exCtl] 1 0 = NormedSpace.exp ((-Complex.I) • (exDrift + z • exCtl)) := fun z => by
    unfold TE.P
    rw [ham, Complex.ofReal_one, mul_one]
  have hone : TE.P NormedSpace.exp [[0]] exDrift [exCtl] 1 0 = 1 := by
    rw [hP, ← Complex.ofReal_zero, exExp]
    have r0 : Real.sqrt ((2 * Real.pi) ^ 2 + (0 : ℝ) ^ 2) = 2 * Real.pi := by
      rw [zero_pow two_ne_zero, add_zero, Real.sqrt_sq (by have := Real.pi_pos; positivity)]
    rw [r0, Real.cos_two_pi, Real.sin_two_pi]
    simp
  obtain ⟨U, u1, -, u3, -⟩ := TE.store_ok (expm := NormedSpace.exp) (A := exDrift) (dt := 1) (shape 0) [0] (by simp)
  have u3' : ∀ t < 1, U[t]? = some ((fun _ => (1 : CMat 2)) t) := fun t ht => by
    obtain rfl : t = 0 := by omega
    rw [u3 0 ht, hone]
  obtain ⟨g, rho', corho', h1, h2, h3, h4, h5, h6, h7⟩ := TE.gradient_ok (cast := id) (transfer := true) (Bm := exCtl)
    (tg := [1]) (tend := 1) rfl u3'
    (rho := grapeRhoInit id 1 exInit) (corho := grapeCorhoInit id 1 exTarget) (r0 := exInit) (c0 := exTarget)
    (by simp [grapeRhoInit]) (by simp [grapeCorhoInit]) (by simp [grapeRhoInit]) (by simp [grapeCorhoInit])
  refine ⟨U, rho', corho', u1, ?_, fun e => NormedSpace.exp ((-Complex.I) • (exDrift + (e : ℂ) • exCtl)), fun e => ?_, exDeriv⟩
  · rw [h1]
    congr 2
    obtain ⟨x, hx⟩ := List.length_eq_one_iff.1 h6
    rw [hx]
    have h8 := h7 0 (by omega)
    rw [hx] at h8
    simp only [List.getElem?_cons_zero, Option.some.injEq, if_true] at h8
    rw [h8]
    congr 1
    have e1 : TE.bwd id true (fun _ => (1 : CMat 2)) 1 exTarget (1 - 0) = exTarget := by
      simp [TE.bwd, TE.bstep]
    have e3 : exTargetᴴ = exTarget := by
      ext i j; fin_cases i <;> fin_cases j <;> simp [exTarget]
    rw [e1, e3]
    show (Matrix.trace ((Complex.I * ((1 / (1 : ℕ) : ℝ) : ℂ)) • exTarget * commutator exCtl exInit)).re = -1
    simp only [commutator, exTarget, exInit, exCtl, Matrix.mul_fin_two, Matrix.smul_mul, Matrix.trace_smul]
    simp [Matrix.trace_fin_two]
    try norm_num
  · rw [TE.final_ok (shape _)]
    show Except.ok (TE.P NormedSpace.exp [[0 + (e : ℂ)]] exDrift [exCtl] 1 0 * 1 * 1) = _
    rw [hP, zero_add, Matrix.mul_one, Matrix.mul_one]

end QuOCS

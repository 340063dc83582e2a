import Verif.Spec.BasisFormulas
import Mathlib.MeasureTheory.Integral.IntegralEqImproper
import Mathlib.MeasureTheory.Integral.IntervalIntegral.FundThmCalculus

/-!
# The error function
-/
set_option linter.unusedSectionVars false
set_option linter.unusedVariables false
namespace QuOCS
open MeasureTheory intervalIntegral

theorem gauss_integrable : Integrable (fun t : ℝ => Real.exp (-t ^ 2)) := by
  simpa using integrable_exp_neg_mul_sq (b := 1) one_pos

theorem gauss_ii (a b : ℝ) : IntervalIntegrable (fun t : ℝ => Real.exp (-t ^ 2)) volume a b :=
  gauss_integrable.intervalIntegrable

theorem gauss_half : ∫ t in Set.Ioi (0 : ℝ), Real.exp (-t ^ 2) = √Real.pi / 2 := by
  simpa using integral_gaussian_Ioi 1

theorem sqrt_pi_pos : 0 < √Real.pi := Real.sqrt_pos.2 Real.pi_pos

theorem errorFn_sub (a b : ℝ) : errorFn b - errorFn a = 2 / √Real.pi * ∫ t in a..b, Real.exp (-t ^ 2) := by
  unfold errorFn
  rw [← mul_sub, integral_interval_sub_left (gauss_ii _ _) (gauss_ii _ _)]

theorem errorFn_strictMono : StrictMono errorFn := by
  intro a b h
  rw [← sub_pos, errorFn_sub]
  have : 0 < ∫ t in a..b, Real.exp (-t ^ 2) :=
    intervalIntegral_pos_of_pos (gauss_ii a b) (fun _ => Real.exp_pos _) h
  have := sqrt_pi_pos
  positivity

theorem errorFn_neg (x : ℝ) : errorFn (-x) = -errorFn x := by
  unfold errorFn
  have h := intervalIntegral.integral_comp_neg (f := fun t : ℝ => Real.exp (-t ^ 2)) (a := 0) (b := x)
  simp only [even_two, Even.neg_pow, neg_zero] at h
  rw [h, integral_symm (-x) 0]
  ring

/-- What is missing to 1. -/
theorem errorFn_tail (x : ℝ) : 1 - errorFn x = 2 / √Real.pi * ∫ t in Set.Ioi x, Real.exp (-t ^ 2) := by
  have h : (∫ t in Set.Ioi (0 : ℝ), Real.exp (-t ^ 2)) - ∫ t in Set.Ioi x, Real.exp (-t ^ 2) = ∫ t in (0 : ℝ)..x, Real.exp (-t ^ 2) :=
    integral_Ioi_sub_Ioi' gauss_integrable.integrableOn gauss_integrable.integrableOn
  unfold errorFn
  rw [← h, gauss_half]
  have := sqrt_pi_pos
  field_simp
  ring

theorem errorFn_lt_one (x : ℝ) : errorFn x < 1 := by
  have h : errorFn x < errorFn (x + 1) := errorFn_strictMono (by linarith)
  have h2 : 0 ≤ 1 - errorFn (x + 1) := by
    rw [errorFn_tail]
    have := sqrt_pi_pos
    have : 0 ≤ ∫ t in Set.Ioi (x + 1), Real.exp (-t ^ 2) := integral_nonneg fun _ => (Real.exp_pos _).le
    positivity
  linarith

theorem errorFn_gt (x : ℝ) : -1 < errorFn x := by
  have := errorFn_lt_one (-x)
  rw [errorFn_neg] at this
  linarith

/-- The tail is below `exp(-x²)`. -/
theorem errorFn_tail_le {x : ℝ} (hx : 0 ≤ x) : 1 - errorFn x ≤ Real.exp (-x ^ 2) := by
  rw [errorFn_tail]
  have h1 : ∫ t in Set.Ioi x, Real.exp (-t ^ 2) = ∫ t in Set.Ioi (0 : ℝ), Real.exp (-(t + x) ^ 2) := by
    have h := (measurePreserving_add_right volume x).setIntegral_preimage_emb (measurableEmbedding_addRight x)
      (fun t : ℝ => Real.exp (-t ^ 2)) (Set.Ioi x)
    rw [← h]
    simp
  have h2 : ∫ t in Set.Ioi (0 : ℝ), Real.exp (-(t + x) ^ 2) ≤ ∫ t in Set.Ioi (0 : ℝ), Real.exp (-x ^ 2) * Real.exp (-t ^ 2) := by
    refine setIntegral_mono_on ?_ ?_ measurableSet_Ioi ?_
    · exact (gauss_integrable.comp_add_right x).integrableOn
    · exact (gauss_integrable.const_mul _).integrableOn
    · intro t ht
      rw [← Real.exp_add]
      refine Real.exp_le_exp.2 ?_
      have : 0 < t := ht
      nlinarith [mul_nonneg this.le hx]
  rw [MeasureTheory.integral_const_mul, gauss_half] at h2
  rw [h1]
  have hp := sqrt_pi_pos
  calc _ ≤ 2 / √Real.pi * (Real.exp (-x ^ 2) * (√Real.pi / 2)) := mul_le_mul_of_nonneg_left h2 (by positivity)
    _ = _ := by field_simp

/-- Integral over an interval, from below. -/
theorem errorFn_sub_ge {a b : ℝ} (ha : 0 ≤ a) (h : a ≤ b) : 2 / √Real.pi * ((b - a) * Real.exp (-b ^ 2)) ≤ errorFn b - errorFn a := by
  rw [errorFn_sub]
  have hp := sqrt_pi_pos
  refine mul_le_mul_of_nonneg_left ?_ (by positivity)
  have : ∫ t in a..b, Real.exp (-b ^ 2) ≤ ∫ t in a..b, Real.exp (-t ^ 2) := by
    refine integral_mono_on h (by simp) (gauss_ii a b) fun t ht => Real.exp_le_exp.2 ?_
    nlinarith [ht.1, ht.2]
  simpa using this

end QuOCS

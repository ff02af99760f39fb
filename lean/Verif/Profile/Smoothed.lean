import Verif.Profile.Mixture
import Mathlib.Analysis.SpecialFunctions.PolarCoord
import Mathlib.Analysis.SpecialFunctions.Integrals.Basic
import Mathlib.Analysis.SpecialFunctions.Gaussian.GaussianIntegral
import Mathlib.MeasureTheory.Integral.Gamma
import Mathlib.MeasureTheory.Integral.DominatedConvergence
import Mathlib.MeasureTheory.Integral.Prod
import Mathlib.Analysis.Normed.Algebra.Exponential
import Mathlib.Analysis.SpecialFunctions.Exponential
import Mathlib.Analysis.Calculus.MeanValue

/-!
# C157, second part: the smoothed Sersic profile

Models `sersic_profile` with smoothing (`forcepho/mixtures/sersic_mix_oned.py:132-164`) over the reals; overflow is left out.
The specification is the convolution of the profile with a gaussian in the plane.
-/

set_option autoImplicit false
set_option linter.unusedSectionVars false

namespace Forcepho.Profile

open MeasureTheory Filter Topology Set
open scoped Nat

noncomputable section

/-! ## Model -/

/-- `hyp1f1(a, 1, z)` of scipy: the confluent hypergeometric series. -/
def hyper1 (a z : ℝ) : ℝ := ∑' j : ℕ, (∏ i ∈ Finset.range j, (a + i)) / (j ! : ℝ) ^ 2 * z ^ j

/-- `term` of the loop (`sersic_mix_oned.py:151-156`), with `z` for `-p`. -/
def seriesTerm (n r0 sigma z : ℝ) (k : Nat) : ℝ :=
  let mu := 1 + (k : ℝ) / (2 * n)
  (-1) ^ k / (k ! : ℝ) * (Real.sqrt 2 * sigma / r0) ^ ((k : ℝ) / n) * Real.Gamma mu * hyper1 mu z

/-- `value[use]` (`sersic_mix_oned.py:147-160`). -/
def seriesValue (x n rh sigma : ℝ) (order : Nat) : ℝ :=
  let alpha := gammaincinv (2 * n) 0.5
  let r0 := rh / alpha ^ n
  let p := -0.5 * (x / sigma) ^ 2
  Real.exp p * (∑ k ∈ Finset.range order, seriesTerm n r0 sigma (-p) k) * Real.exp alpha

/-- `sersic_profile` at one radius (`sersic_mix_oned.py:132-164`). -/
def sersicSmoothed (x n rh sigma : ℝ) (order : Nat) : ℝ :=
  if sigma ≤ 0 then sersicProfile x n rh
  else
    let sersic := sersicProfile x n rh
    let value := if x < sigma * 15 then seriesValue x n rh sigma order else 0
    if ¬ x < sigma * 15 ∨ (sersic > 1.5 * value ∧ x > sigma) then sersic else value

/-! ## Specification -/

/-- A round profile, convolved with a gaussian of dispersion `sigma` in the plane, at distance `x` of the centre. -/
def smoothed (f : ℝ → ℝ) (sigma x : ℝ) : ℝ :=
  ∫ z : ℝ × ℝ, f (Real.sqrt (z.1 ^ 2 + z.2 ^ 2)) *
    (Real.exp (-((x - z.1) ^ 2 + z.2 ^ 2) / (2 * sigma ^ 2)) / (2 * Real.pi * sigma ^ 2))

/-! ## The integral over angles -/

theorem cos_pow_even (j : ℕ) :
    ∫ t in (-Real.pi)..Real.pi, Real.cos t ^ (2 * j) = 2 * Real.pi * ((2 * j) ! : ℝ) / (4 ^ j * (j ! : ℝ) ^ 2) := by
  induction j with
  | zero => simp; ring
  | succ j ih =>
    rw [show 2 * (j + 1) = 2 * j + 2 by ring, integral_cos_pow, ih]
    simp only [Real.sin_pi, Real.sin_neg, neg_zero, mul_zero, sub_zero, zero_div, zero_add]
    have h1 : ((2 * j + 2) ! : ℝ) = (2 * j + 2) * ((2 * j + 1) * ((2 * j) ! : ℝ)) := by
      rw [Nat.factorial_succ, Nat.factorial_succ]
      push_cast
      ring
    have h2 : ((j + 1) ! : ℝ) = (j + 1) * (j ! : ℝ) := by
      rw [Nat.factorial_succ]
      push_cast
      ring
    rw [h1, h2, pow_succ]
    have := Nat.factorial_pos j
    have h3 : ((2 * j : ℕ) : ℝ) = 2 * j := by push_cast; ring
    rw [h3]
    field_simp
    ring

theorem cos_pow_odd (j : ℕ) : ∫ t in (-Real.pi)..Real.pi, Real.cos t ^ (2 * j + 1) = 0 := by
  induction j with
  | zero => simp
  | succ j ih =>
    rw [show 2 * (j + 1) + 1 = (2 * j + 1) + 2 by ring, integral_cos_pow, ih]
    simp

theorem exp_hasSum (y : ℝ) : HasSum (fun k : ℕ => y ^ k / (k ! : ℝ)) (Real.exp y) := by
  rw [Real.exp_eq_exp_ℝ]
  exact NormedSpace.expSeries_div_hasSum_exp y

/-- The series of the modified Bessel function. -/
theorem bessel (z : ℝ) : HasSum (fun j : ℕ => 2 * Real.pi * ((z / 2) ^ (2 * j) / (j ! : ℝ) ^ 2))
    (∫ t in (-Real.pi)..Real.pi, Real.exp (z * Real.cos t)) := by
  have h : HasSum (fun k : ℕ => ∫ t in (-Real.pi)..Real.pi, (z * Real.cos t) ^ k / (k ! : ℝ))
      (∫ t in (-Real.pi)..Real.pi, Real.exp (z * Real.cos t)) := by
    apply intervalIntegral.hasSum_integral_of_dominated_convergence (fun k _ => |z| ^ k / (k ! : ℝ))
    · intro k
      exact (by fun_prop : Continuous fun t : ℝ => (z * Real.cos t) ^ k / (k ! : ℝ)).aestronglyMeasurable
    · intro k
      refine ae_of_all _ fun t _ => ?_
      rw [Real.norm_eq_abs, abs_div, abs_pow, abs_mul, Nat.abs_cast]
      have := Real.abs_cos_le_one t
      have h0 := abs_nonneg z
      have : |z| * |Real.cos t| ≤ |z| := by nlinarith
      gcongr
    · exact ae_of_all _ fun t _ => (exp_hasSum |z|).summable
    · exact intervalIntegrable_const
    · exact ae_of_all _ fun t _ => exp_hasSum _
  have hinj : Function.Injective fun j : ℕ => 2 * j := fun a b hab => by simpa using hab
  have hodd : ∀ k ∉ Set.range (fun j : ℕ => 2 * j),
      (∫ t in (-Real.pi)..Real.pi, (z * Real.cos t) ^ k / (k ! : ℝ)) = 0 := by
    intro k hk
    have : k % 2 = 1 := by
      by_contra hne
      exact hk ⟨k / 2, by simp only; omega⟩
    obtain ⟨j, rfl⟩ : ∃ j, k = 2 * j + 1 := ⟨k / 2, by omega⟩
    simp_rw [mul_pow, mul_div_right_comm, intervalIntegral.integral_const_mul, cos_pow_odd, mul_zero]
  rw [← hinj.hasSum_iff hodd] at h
  refine h.congr_fun ?_ |> id
  intro j
  simp only [Function.comp]
  simp_rw [mul_pow, mul_div_right_comm, intervalIntegral.integral_const_mul, cos_pow_even]
  have := Nat.factorial_pos j
  have := Nat.factorial_pos (2 * j)
  rw [div_pow, pow_mul 2]
  norm_num
  field_simp

/-! ## Moments of the smoothing -/

theorem hyper_summable {a : ℝ} (ha : 0 < a) (z : ℝ) :
    Summable fun j : ℕ => (∏ i ∈ Finset.range j, (a + i)) / (j ! : ℝ) ^ 2 * z ^ j := by
  have hprod : ∀ j : ℕ, (∏ i ∈ Finset.range j, (a + i)) ≤ (a + 1) ^ j * (j ! : ℝ) := by
    intro j
    induction j with
    | zero => simp
    | succ j ih =>
      rw [Finset.prod_range_succ, Nat.factorial_succ, pow_succ]
      push_cast
      have h0 : 0 ≤ ∏ i ∈ Finset.range j, (a + i) := Finset.prod_nonneg fun i _ => by positivity
      have h1 : a + j ≤ (a + 1) * (j + 1) := by
        have : (0 : ℝ) ≤ j := Nat.cast_nonneg j
        nlinarith
      calc (∏ i ∈ Finset.range j, (a + i)) * (a + j) ≤ ((a + 1) ^ j * (j ! : ℝ)) * ((a + 1) * (j + 1)) :=
            mul_le_mul ih h1 (by positivity) (by positivity)
        _ = _ := by ring
  refine Summable.of_norm_bounded ((exp_hasSum ((a + 1) * |z|)).summable) fun j => ?_
  have h0 : 0 ≤ ∏ i ∈ Finset.range j, (a + i) := Finset.prod_nonneg fun i _ => by positivity
  rw [Real.norm_eq_abs, abs_mul, abs_div, abs_of_nonneg h0, abs_pow z, abs_of_nonneg (show (0 : ℝ) ≤ (j ! : ℝ) ^ 2 by positivity), mul_pow]
  have hj : (0 : ℝ) < (j ! : ℝ) := by exact_mod_cast Nat.factorial_pos j
  rw [div_mul_eq_mul_div, div_le_div_iff₀ (by positivity) hj]
  have := mul_le_mul_of_nonneg_right (hprod j) (show 0 ≤ |z| ^ j * (j ! : ℝ) by positivity)
  nlinarith

theorem gamma_add (a : ℝ) (ha : 0 < a) (j : ℕ) :
    Real.Gamma (a + j) = Real.Gamma a * ∏ i ∈ Finset.range j, (a + i) := by
  induction j with
  | zero => simp
  | succ j ih =>
    rw [Finset.prod_range_succ, ← mul_assoc, ← ih]
    push_cast
    rw [← add_assoc, Real.Gamma_add_one (by positivity)]
    ring

/-- The integral over radii. -/
theorem radial {sigma : ℝ} (hs : 0 < sigma) {m : ℝ} (hm : 0 ≤ m) (x : ℝ) :
    ∫ r in Ioi (0 : ℝ), (∫ t in (-Real.pi)..Real.pi, r * (r ^ m *
      (Real.exp (-(r ^ 2 - 2 * r * x * Real.cos t + x ^ 2) / (2 * sigma ^ 2)) / (2 * Real.pi * sigma ^ 2)))) =
      Real.exp (-x ^ 2 / (2 * sigma ^ 2)) * (Real.sqrt 2 * sigma) ^ m * Real.Gamma (1 + m / 2) *
        hyper1 (1 + m / 2) (x ^ 2 / (2 * sigma ^ 2)) := by
  have hpi := Real.pi_pos
  set K := Real.exp (-x ^ 2 / (2 * sigma ^ 2)) / sigma ^ 2 with hK
  set F : ℕ → ℝ → ℝ := fun j r => K * ((x / (2 * sigma ^ 2)) ^ (2 * j) / (j ! : ℝ) ^ 2) *
    (r ^ (m + 1 + 2 * j) * Real.exp (-(1 / (2 * sigma ^ 2)) * r ^ (2 : ℝ))) with hF
  have hb : 0 < 1 / (2 * sigma ^ 2) := by positivity
  have hFint : ∀ j, IntegrableOn (F j) (Ioi 0) := by
    intro j
    have h := integrableOn_rpow_mul_exp_neg_mul_sq hb (s := m + 1 + 2 * j) (by
      have : (0 : ℝ) ≤ j := Nat.cast_nonneg j
      linarith)
    have h2 : IntegrableOn (fun r : ℝ => r ^ (m + 1 + 2 * (j : ℝ)) * Real.exp (-(1 / (2 * sigma ^ 2)) * r ^ (2 : ℝ))) (Ioi 0) := by
      refine h.congr_fun (fun r _ => ?_) measurableSet_Ioi
      simp only
      rw [Real.rpow_two]
    exact h2.const_mul _
  have hFval : ∀ j, ∫ r in Ioi (0 : ℝ), F j r = Real.exp (-x ^ 2 / (2 * sigma ^ 2)) * (Real.sqrt 2 * sigma) ^ m *
      Real.Gamma (1 + m / 2) * ((∏ i ∈ Finset.range j, (1 + m / 2 + i)) / (j ! : ℝ) ^ 2 * (x ^ 2 / (2 * sigma ^ 2)) ^ j) := by
    intro j
    have hj : (0 : ℝ) ≤ j := Nat.cast_nonneg j
    simp only [hF]
    rw [integral_const_mul, integral_rpow_mul_exp_neg_mul_rpow (by norm_num) (by linarith) hb,
      show (m + 1 + 2 * (j : ℝ) + 1) / 2 = 1 + m / 2 + j by ring, gamma_add _ (by linarith),
      show -(m + 1 + 2 * (j : ℝ) + 1) / 2 = -(1 + m / 2 + j) by ring, one_div, Real.inv_rpow (by positivity),
      Real.rpow_neg (by positivity), inv_inv, Real.rpow_add (by positivity), Real.rpow_add (by positivity), Real.rpow_one,
      Real.rpow_natCast]
    have e1 : (2 * sigma ^ 2) ^ (m / 2) = (Real.sqrt 2 * sigma) ^ m := by
      rw [show 2 * sigma ^ 2 = (Real.sqrt 2 * sigma) ^ (2 : ℝ) by
        rw [Real.rpow_two, mul_pow, Real.sq_sqrt (by norm_num)], ← Real.rpow_mul (by positivity)]
      congr 1
      ring
    have e2 : (x / (2 * sigma ^ 2)) ^ (2 * j) * (2 * sigma ^ 2) ^ j = (x ^ 2 / (2 * sigma ^ 2)) ^ j := by
      rw [pow_mul, ← mul_pow]
      congr 1
      field_simp
    rw [e1, ← e2, hK]
    have hjf : (0 : ℝ) < (j ! : ℝ) := by exact_mod_cast Nat.factorial_pos j
    field_simp
  have hFnonneg : ∀ j, ∀ r ∈ Ioi (0 : ℝ), 0 ≤ F j r := by
    intro j r hr
    have hr : 0 < r := hr
    simp only [hF]
    have : 0 ≤ (x / (2 * sigma ^ 2)) ^ (2 * j) := by
      rw [pow_mul]
      positivity
    positivity
  have hsum : Summable fun j => ∫ r in Ioi (0 : ℝ), ‖F j r‖ := by
    have e : (fun j => ∫ r in Ioi (0 : ℝ), ‖F j r‖) = fun j => ∫ r in Ioi (0 : ℝ), F j r := by
      funext j
      exact setIntegral_congr_fun measurableSet_Ioi fun r hr => by
        rw [Real.norm_of_nonneg (hFnonneg j r hr)]
    rw [e]
    simp_rw [hFval]
    exact (hyper_summable (by linarith) _).mul_left _
  have hmain := hasSum_integral_of_summable_integral_norm hFint hsum
  rw [hyper1, ← tsum_mul_left]
  simp_rw [← hFval]
  rw [hmain.tsum_eq]
  refine setIntegral_congr_fun measurableSet_Ioi fun r hr => ?_
  have hr : 0 < r := hr
  have hB := bessel (r * x / sigma ^ 2)
  have e1 : ∀ t : ℝ, r * (r ^ m * (Real.exp (-(r ^ 2 - 2 * r * x * Real.cos t + x ^ 2) / (2 * sigma ^ 2)) /
      (2 * Real.pi * sigma ^ 2))) = (r ^ (m + 1) * K * Real.exp (-(1 / (2 * sigma ^ 2)) * r ^ (2 : ℝ)) / (2 * Real.pi)) *
        Real.exp (r * x / sigma ^ 2 * Real.cos t) := by
    intro t
    have : Real.exp (-(r ^ 2 - 2 * r * x * Real.cos t + x ^ 2) / (2 * sigma ^ 2)) = Real.exp (-x ^ 2 / (2 * sigma ^ 2)) *
        Real.exp (-(1 / (2 * sigma ^ 2)) * r ^ (2 : ℝ)) * Real.exp (r * x / sigma ^ 2 * Real.cos t) := by
      rw [← Real.exp_add, ← Real.exp_add, Real.rpow_two]
      congr 1
      field_simp
      ring
    rw [this, hK, Real.rpow_add hr, Real.rpow_one]
    field_simp
  simp_rw [e1, intervalIntegral.integral_const_mul]
  rw [← hB.tsum_eq, ← tsum_mul_left]
  congr 1
  funext j
  simp only [hF]
  rw [show m + 1 + 2 * (j : ℝ) = m + 1 + ((2 * j : ℕ) : ℝ) by push_cast; ring, Real.rpow_add hr (m + 1), Real.rpow_natCast,
    show r * x / sigma ^ 2 / 2 = r * (x / (2 * sigma ^ 2)) by field_simp, mul_pow]
  field_simp

theorem rpow_le_exp {a : ℝ} (ha : 0 ≤ a) : ∃ C : ℝ, ∀ y : ℝ, 0 ≤ y → y ^ a ≤ C * Real.exp y := by
  refine ⟨1 + (⌈a⌉₊ ! : ℝ), fun y hy => ?_⟩
  have h1 : (1 : ℝ) ≤ Real.exp y := Real.one_le_exp hy
  have h2 := Real.pow_div_factorial_le_exp y hy ⌈a⌉₊
  have hf : (0 : ℝ) < (⌈a⌉₊ ! : ℝ) := by exact_mod_cast Nat.factorial_pos _
  rw [div_le_iff₀ hf] at h2
  have h3 : y ^ a ≤ 1 + y ^ ⌈a⌉₊ := by
    rcases le_total y 1 with h | h
    · have := Real.rpow_le_one hy h ha
      have := pow_nonneg hy ⌈a⌉₊
      linarith
    · have := Real.rpow_le_rpow_of_exponent_le h (Nat.le_ceil a)
      rw [Real.rpow_natCast] at this
      linarith
  linarith

/-- The gaussian of the smoothing. -/
def kernelAt (sigma x : ℝ) (z : ℝ × ℝ) : ℝ :=
  Real.exp (-((x - z.1) ^ 2 + z.2 ^ 2) / (2 * sigma ^ 2)) / (2 * Real.pi * sigma ^ 2)

theorem moment_integrable {sigma : ℝ} (hs : 0 < sigma) {m : ℝ} (hm : 0 ≤ m) (x : ℝ) :
    Integrable fun z : ℝ × ℝ => Real.sqrt (z.1 ^ 2 + z.2 ^ 2) ^ m * kernelAt sigma x z := by
  have hpi := Real.pi_pos
  obtain ⟨C, hC⟩ := rpow_le_exp (show 0 ≤ m / 2 by linarith)
  have hb : 0 < 1 / (8 * sigma ^ 2) := by positivity
  have hint : Integrable fun z : ℝ × ℝ => ((8 * sigma ^ 2) ^ (m / 2) * C * (Real.exp (x ^ 2 / (2 * sigma ^ 2)) /
      (2 * Real.pi * sigma ^ 2))) * (Real.exp (-(1 / (8 * sigma ^ 2)) * z.1 ^ 2) *
        Real.exp (-(1 / (8 * sigma ^ 2)) * z.2 ^ 2)) :=
    ((integrable_exp_neg_mul_sq hb).mul_prod (integrable_exp_neg_mul_sq hb)).const_mul _
  refine hint.mono' ?_ (ae_of_all _ fun z => ?_)
  · apply Continuous.aestronglyMeasurable
    unfold kernelAt
    have : Continuous fun z : ℝ × ℝ => Real.sqrt (z.1 ^ 2 + z.2 ^ 2) ^ m :=
      Continuous.rpow_const (by fun_prop) fun z => .inr hm
    fun_prop
  · have hk : 0 ≤ kernelAt sigma x z := by
      unfold kernelAt
      positivity
    rw [Real.norm_of_nonneg (by positivity)]
    have hq : 0 ≤ z.1 ^ 2 + z.2 ^ 2 := by positivity
    have h1 : Real.sqrt (z.1 ^ 2 + z.2 ^ 2) ^ m ≤ (8 * sigma ^ 2) ^ (m / 2) *
        (C * Real.exp ((z.1 ^ 2 + z.2 ^ 2) / (8 * sigma ^ 2))) := by
      have e : Real.sqrt (z.1 ^ 2 + z.2 ^ 2) ^ m = (8 * sigma ^ 2) ^ (m / 2) *
          ((z.1 ^ 2 + z.2 ^ 2) / (8 * sigma ^ 2)) ^ (m / 2) := by
        rw [← Real.mul_rpow (by positivity) (by positivity), mul_div_cancel₀ _ (by positivity), Real.sqrt_eq_rpow,
          ← Real.rpow_mul hq]
        congr 1
        ring
      rw [e]
      exact mul_le_mul_of_nonneg_left (hC _ (by positivity)) (by positivity)
    have h2 : kernelAt sigma x z ≤ Real.exp (x ^ 2 / (2 * sigma ^ 2) - (z.1 ^ 2 + z.2 ^ 2) / (4 * sigma ^ 2)) /
        (2 * Real.pi * sigma ^ 2) := by
      unfold kernelAt
      gcongr
      rw [div_sub_div _ _ (by positivity) (by positivity), div_le_div_iff₀ (by positivity) (by positivity)]
      have : 0 ≤ ((z.1 - 2 * x) ^ 2 + z.2 ^ 2) * (4 * sigma ^ 4) := by positivity
      nlinarith
    have hC0 : 0 ≤ C := by
      have := hC 0 le_rfl
      have h0 : (0 : ℝ) ≤ 0 ^ (m / 2) := Real.rpow_nonneg le_rfl _
      rw [Real.exp_zero, mul_one] at this
      linarith
    calc Real.sqrt (z.1 ^ 2 + z.2 ^ 2) ^ m * kernelAt sigma x z
        ≤ ((8 * sigma ^ 2) ^ (m / 2) * (C * Real.exp ((z.1 ^ 2 + z.2 ^ 2) / (8 * sigma ^ 2)))) *
          (Real.exp (x ^ 2 / (2 * sigma ^ 2) - (z.1 ^ 2 + z.2 ^ 2) / (4 * sigma ^ 2)) / (2 * Real.pi * sigma ^ 2)) :=
          mul_le_mul h1 h2 hk (by positivity)
      _ = _ := by
        have e : Real.exp ((z.1 ^ 2 + z.2 ^ 2) / (8 * sigma ^ 2)) *
            Real.exp (x ^ 2 / (2 * sigma ^ 2) - (z.1 ^ 2 + z.2 ^ 2) / (4 * sigma ^ 2)) =
            Real.exp (x ^ 2 / (2 * sigma ^ 2)) * (Real.exp (-(1 / (8 * sigma ^ 2)) * z.1 ^ 2) *
              Real.exp (-(1 / (8 * sigma ^ 2)) * z.2 ^ 2)) := by
          rw [← Real.exp_add, ← Real.exp_add, ← Real.exp_add]
          congr 1
          field_simp
          ring
        linear_combination ((8 * sigma ^ 2) ^ (m / 2) * C / (2 * Real.pi * sigma ^ 2)) * e

/-- The moments of the distance from the centre under the smoothing. -/
theorem moment {sigma : ℝ} (hs : 0 < sigma) {m : ℝ} (hm : 0 ≤ m) (x : ℝ) :
    ∫ z : ℝ × ℝ, Real.sqrt (z.1 ^ 2 + z.2 ^ 2) ^ m * kernelAt sigma x z =
      Real.exp (-x ^ 2 / (2 * sigma ^ 2)) * (Real.sqrt 2 * sigma) ^ m * Real.Gamma (1 + m / 2) *
        hyper1 (1 + m / 2) (x ^ 2 / (2 * sigma ^ 2)) := by
  have hpi := Real.pi_pos
  rw [← radial hs hm, ← integral_comp_polarCoord_symm]
  change ∫ p in Ioi (0 : ℝ) ×ˢ Ioo (-Real.pi) Real.pi, p.1 • (Real.sqrt ((p.1 * Real.cos p.2) ^ 2 + (p.1 * Real.sin p.2) ^ 2) ^ m *
    kernelAt sigma x (p.1 * Real.cos p.2, p.1 * Real.sin p.2)) = _
  have hcongr : ∀ p ∈ Ioi (0 : ℝ) ×ˢ Ioo (-Real.pi) Real.pi,
      p.1 • (Real.sqrt ((p.1 * Real.cos p.2) ^ 2 + (p.1 * Real.sin p.2) ^ 2) ^ m *
        kernelAt sigma x (p.1 * Real.cos p.2, p.1 * Real.sin p.2)) = p.1 * (p.1 ^ m *
          (Real.exp (-(p.1 ^ 2 - 2 * p.1 * x * Real.cos p.2 + x ^ 2) / (2 * sigma ^ 2)) / (2 * Real.pi * sigma ^ 2))) := by
    rintro ⟨r, t⟩ ⟨hr, -⟩
    have hr : 0 < r := hr
    have hcs := Real.sin_sq_add_cos_sq t
    have e1 : (r * Real.cos t) ^ 2 + (r * Real.sin t) ^ 2 = r ^ 2 := by linear_combination r ^ 2 * hcs
    simp only [smul_eq_mul, kernelAt]
    rw [e1, Real.sqrt_sq hr.le, show (x - r * Real.cos t) ^ 2 + (r * Real.sin t) ^ 2 =
      r ^ 2 - 2 * r * x * Real.cos t + x ^ 2 by linear_combination e1]
  rw [setIntegral_congr_fun (measurableSet_Ioi.prod measurableSet_Ioo) hcongr, Measure.volume_eq_prod, setIntegral_prod]
  · refine setIntegral_congr_fun measurableSet_Ioi fun r _ => ?_
    rw [intervalIntegral.integral_of_le (by linarith), integral_Ioc_eq_integral_Ioo]
  · rw [IntegrableOn, ← Measure.prod_restrict]
    have hb : 0 < 1 / (4 * sigma ^ 2) := by positivity
    have h1 : IntegrableOn (fun r : ℝ => (Real.exp (x ^ 2 / (2 * sigma ^ 2)) / (2 * Real.pi * sigma ^ 2)) *
        (r ^ (m + 1) * Real.exp (-(1 / (4 * sigma ^ 2)) * r ^ 2))) (Ioi 0) :=
      (integrableOn_rpow_mul_exp_neg_mul_sq hb (by linarith)).const_mul _
    have h2 := Integrable.comp_fst h1 (volume.restrict (Ioo (-Real.pi) Real.pi))
    refine h2.mono' ?_ ?_
    · apply Measurable.aestronglyMeasurable
      fun_prop
    · rw [Measure.prod_restrict, ae_restrict_iff' (measurableSet_Ioi.prod measurableSet_Ioo)]
      refine ae_of_all _ ?_
      rintro ⟨r, t⟩ ⟨hr, -⟩
      have hr : 0 < r := hr
      have hcs := Real.sin_sq_add_cos_sq t
      simp only
      rw [Real.norm_of_nonneg (by positivity), Real.rpow_add hr, Real.rpow_one]
      have : Real.exp (-(r ^ 2 - 2 * r * x * Real.cos t + x ^ 2) / (2 * sigma ^ 2)) ≤
          Real.exp (x ^ 2 / (2 * sigma ^ 2)) * Real.exp (-(1 / (4 * sigma ^ 2)) * r ^ 2) := by
        rw [← Real.exp_add]
        apply Real.exp_le_exp.mpr
        rw [show x ^ 2 / (2 * sigma ^ 2) + -(1 / (4 * sigma ^ 2)) * r ^ 2 = (x ^ 2 - r ^ 2 / 2) / (2 * sigma ^ 2) by
          field_simp; ring]
        gcongr
        nlinarith [sq_nonneg (r - 2 * x * Real.cos t), mul_nonneg (sq_nonneg x) (sq_nonneg (Real.sin t))]
      calc r * (r ^ m * (Real.exp (-(r ^ 2 - 2 * r * x * Real.cos t + x ^ 2) / (2 * sigma ^ 2)) / (2 * Real.pi * sigma ^ 2)))
          ≤ r * (r ^ m * (Real.exp (x ^ 2 / (2 * sigma ^ 2)) * Real.exp (-(1 / (4 * sigma ^ 2)) * r ^ 2) /
            (2 * Real.pi * sigma ^ 2))) := by gcongr
        _ = _ := by ring

/-! ## Truncation of the series -/

/-- The remainder of the series of `exp (-y)` is at most the first term left out. -/
theorem exp_remainder (K : ℕ) : ∀ y : ℝ, 0 ≤ y →
    |Real.exp (-y) - ∑ k ∈ Finset.range K, (-1) ^ k / (k ! : ℝ) * y ^ k| ≤ y ^ K / (K ! : ℝ) := by
  induction K with
  | zero =>
    intro y hy
    simp only [Finset.range_zero, Finset.sum_empty, sub_zero, pow_zero, Nat.factorial_zero, Nat.cast_one, div_one]
    rw [abs_of_pos (Real.exp_pos _)]
    exact Real.exp_le_one_iff.mpr (by linarith)
  | succ K ih =>
    intro y hy
    have hd : ∀ s : ℝ, HasDerivAt (fun s : ℝ => Real.exp (-s) - ∑ k ∈ Finset.range (K + 1), (-1) ^ k / (k ! : ℝ) * s ^ k)
        (-(Real.exp (-s) - ∑ k ∈ Finset.range K, (-1) ^ k / (k ! : ℝ) * s ^ k)) s := by
      intro s
      have h1 : HasDerivAt (fun s : ℝ => Real.exp (-s)) (-Real.exp (-s)) s := by
        have := (Real.hasDerivAt_exp (-s)).comp s (hasDerivAt_neg s)
        exact this.congr_deriv (by ring)
      have h2 : HasDerivAt (fun s : ℝ => ∑ k ∈ Finset.range (K + 1), (-1) ^ k / (k ! : ℝ) * s ^ k)
          (∑ k ∈ Finset.range (K + 1), (-1) ^ k / (k ! : ℝ) * (k * s ^ (k - 1))) s :=
        HasDerivAt.fun_sum fun k _ => (hasDerivAt_pow k s).const_mul _
      refine (h1.sub h2).congr_deriv ?_
      rw [Finset.sum_range_succ']
      have e : ∑ k ∈ Finset.range K, (-1 : ℝ) ^ (k + 1) / ((k + 1) ! : ℝ) * (((k + 1 : ℕ) : ℝ) * s ^ (k + 1 - 1)) =
          -∑ k ∈ Finset.range K, (-1) ^ k / (k ! : ℝ) * s ^ k := by
        rw [← Finset.sum_neg_distrib]
        apply Finset.sum_congr rfl
        intro k _
        have : (0 : ℝ) < (k ! : ℝ) := by exact_mod_cast Nat.factorial_pos k
        rw [Nat.factorial_succ, pow_succ]
        push_cast
        have : (0 : ℝ) < (k : ℝ) + 1 := by positivity
        field_simp
      rw [e]
      simp
      ring
    have hB : ∀ s : ℝ, HasDerivAt (fun s : ℝ => s ^ (K + 1) / ((K + 1) ! : ℝ)) (s ^ K / (K ! : ℝ)) s := by
      intro s
      have := (hasDerivAt_pow (K + 1) s).div_const ((K + 1) ! : ℝ)
      refine this.congr_deriv ?_
      have : (0 : ℝ) < (K ! : ℝ) := by exact_mod_cast Nat.factorial_pos K
      have : (0 : ℝ) < (K : ℝ) + 1 := by positivity
      rw [Nat.factorial_succ, Nat.add_sub_cancel]
      push_cast
      field_simp
    have := image_norm_le_of_norm_deriv_right_le_deriv_boundary (a := 0) (b := y)
      (fun s _ => (hd s).continuousAt.continuousWithinAt) (fun s _ => (hd s).hasDerivWithinAt)
      (B := fun s => s ^ (K + 1) / ((K + 1) ! : ℝ)) (B' := fun s => s ^ K / (K ! : ℝ)) (by
        rw [Finset.sum_range_succ']
        simp) hB (fun s hs => by
        rw [norm_neg]
        exact ih s hs.1) ⟨hy, le_rfl⟩
    exact this

/-- The series as one integral. -/
theorem series_integral {n rh sigma : ℝ} (hn : 0 < n) (hrh : 0 < rh) (hs : 0 < sigma) (x : ℝ) (order : ℕ) :
    seriesValue x n rh sigma order = Real.exp (gammaincinv (2 * n) 0.5) * ∫ z : ℝ × ℝ,
      (∑ k ∈ Finset.range order, (-1) ^ k / (k ! : ℝ) * ((Real.sqrt (z.1 ^ 2 + z.2 ^ 2) /
        (rh / gammaincinv (2 * n) 0.5 ^ n)) ^ (1 / n)) ^ k) * kernelAt sigma x z := by
  have hpi := Real.pi_pos
  set alpha := gammaincinv (2 * n) 0.5 with halpha
  have ha : 0 < alpha := (bn_spec hn).1
  set r0 := rh / alpha ^ n with hr0
  have hr0p : 0 < r0 := by positivity
  have hmom : ∀ k : ℕ, ∫ z : ℝ × ℝ, (Real.sqrt (z.1 ^ 2 + z.2 ^ 2) / r0) ^ ((k : ℝ) / n) * kernelAt sigma x z =
      Real.exp (-x ^ 2 / (2 * sigma ^ 2)) * (Real.sqrt 2 * sigma / r0) ^ ((k : ℝ) / n) * Real.Gamma (1 + (k : ℝ) / (2 * n)) *
        hyper1 (1 + (k : ℝ) / (2 * n)) (x ^ 2 / (2 * sigma ^ 2)) := by
    intro k
    have h := moment hs (show 0 ≤ (k : ℝ) / n by positivity) x
    rw [show (k : ℝ) / n / 2 = (k : ℝ) / (2 * n) by field_simp] at h
    simp_rw [Real.div_rpow (Real.sqrt_nonneg _) hr0p.le]
    rw [Real.div_rpow (by positivity) hr0p.le]
    simp_rw [div_mul_eq_mul_div]
    rw [integral_div, h]
    ring
  have hint : ∀ k : ℕ, Integrable fun z : ℝ × ℝ => (Real.sqrt (z.1 ^ 2 + z.2 ^ 2) / r0) ^ ((k : ℝ) / n) * kernelAt sigma x z := by
    intro k
    have h := (moment_integrable hs (show 0 ≤ (k : ℝ) / n by positivity) x).div_const (r0 ^ ((k : ℝ) / n))
    simp_rw [Real.div_rpow (Real.sqrt_nonneg _) hr0p.le, div_mul_eq_mul_div]
    exact h
  have hpow : ∀ (z : ℝ × ℝ) (k : ℕ), ((Real.sqrt (z.1 ^ 2 + z.2 ^ 2) / r0) ^ (1 / n)) ^ k =
      (Real.sqrt (z.1 ^ 2 + z.2 ^ 2) / r0) ^ ((k : ℝ) / n) := by
    intro z k
    rw [← Real.rpow_natCast, ← Real.rpow_mul (by positivity)]
    congr 1
    ring
  simp_rw [Finset.sum_mul, hpow, mul_assoc]
  rw [integral_finsetSum _ fun k _ => (hint k).const_mul _]
  simp_rw [integral_const_mul, hmom]
  simp only [seriesValue]
  rw [← halpha, ← hr0, show -0.5 * (x / sigma) ^ 2 = -x ^ 2 / (2 * sigma ^ 2) by
      rw [div_pow, show (-0.5 : ℝ) = -1 / 2 by norm_num]; field_simp,
    mul_comm _ (Real.exp alpha), Finset.mul_sum]
  congr 1
  apply Finset.sum_congr rfl
  intro k _
  simp only [seriesTerm]
  rw [show -(-x ^ 2 / (2 * sigma ^ 2)) = x ^ 2 / (2 * sigma ^ 2) by ring]
  ring

/-- C157 (smoothing): the series of the smoothed profile, cut after any number of terms, differs from the convolution of the
Sersic profile with a gaussian in the plane by at most the first term left out. -/
theorem C157_smoothing {n rh sigma : ℝ} (hn : 0 < n) (hrh : 0 < rh) (hs : 0 < sigma) (x : ℝ) (order : ℕ) :
    |seriesValue x n rh sigma order - smoothed (fun r => sersicProfile r n rh) sigma x| ≤
      Real.exp (gammaincinv (2 * n) 0.5) * (Real.exp (-x ^ 2 / (2 * sigma ^ 2)) / (order ! : ℝ) *
        (Real.sqrt 2 * sigma * gammaincinv (2 * n) 0.5 ^ n / rh) ^ ((order : ℝ) / n) *
        Real.Gamma (1 + (order : ℝ) / (2 * n)) * hyper1 (1 + (order : ℝ) / (2 * n)) (x ^ 2 / (2 * sigma ^ 2))) := by
  have hpi := Real.pi_pos
  set alpha := gammaincinv (2 * n) 0.5 with halpha
  have ha : 0 < alpha := (bn_spec hn).1
  set r0 := rh / alpha ^ n with hr0
  have hr0p : 0 < r0 := by positivity
  have hmom : ∀ k : ℕ, ∫ z : ℝ × ℝ, (Real.sqrt (z.1 ^ 2 + z.2 ^ 2) / r0) ^ ((k : ℝ) / n) * kernelAt sigma x z =
      Real.exp (-x ^ 2 / (2 * sigma ^ 2)) * (Real.sqrt 2 * sigma / r0) ^ ((k : ℝ) / n) * Real.Gamma (1 + (k : ℝ) / (2 * n)) *
        hyper1 (1 + (k : ℝ) / (2 * n)) (x ^ 2 / (2 * sigma ^ 2)) := by
    intro k
    have h := moment hs (show 0 ≤ (k : ℝ) / n by positivity) x
    rw [show (k : ℝ) / n / 2 = (k : ℝ) / (2 * n) by field_simp] at h
    simp_rw [Real.div_rpow (Real.sqrt_nonneg _) hr0p.le]
    rw [Real.div_rpow (by positivity) hr0p.le]
    simp_rw [div_mul_eq_mul_div]
    rw [integral_div, h]
    ring
  have hint : ∀ k : ℕ, Integrable fun z : ℝ × ℝ => (Real.sqrt (z.1 ^ 2 + z.2 ^ 2) / r0) ^ ((k : ℝ) / n) * kernelAt sigma x z := by
    intro k
    have h := (moment_integrable hs (show 0 ≤ (k : ℝ) / n by positivity) x).div_const (r0 ^ ((k : ℝ) / n))
    simp_rw [Real.div_rpow (Real.sqrt_nonneg _) hr0p.le, div_mul_eq_mul_div]
    exact h
  have hpow : ∀ (z : ℝ × ℝ) (k : ℕ), ((Real.sqrt (z.1 ^ 2 + z.2 ^ 2) / r0) ^ (1 / n)) ^ k =
      (Real.sqrt (z.1 ^ 2 + z.2 ^ 2) / r0) ^ ((k : ℝ) / n) := by
    intro z k
    rw [← Real.rpow_natCast, ← Real.rpow_mul (by positivity)]
    congr 1
    ring
  have hker : ∀ z, 0 ≤ kernelAt sigma x z := by
    intro z
    unfold kernelAt
    positivity
  -- the smoothed profile
  have hsm : smoothed (fun r => sersicProfile r n rh) sigma x = Real.exp alpha *
      ∫ z : ℝ × ℝ, Real.exp (-(Real.sqrt (z.1 ^ 2 + z.2 ^ 2) / r0) ^ (1 / n)) * kernelAt sigma x z := by
    rw [← integral_const_mul, smoothed]
    congr 1
    funext z
    simp only [sersicProfile, kernelAt]
    rw [← halpha, ← hr0, Real.exp_add, show (1.0 : ℝ) / n = 1 / n by norm_num]
    ring
  have hfint : Integrable fun z : ℝ × ℝ => Real.exp (-(Real.sqrt (z.1 ^ 2 + z.2 ^ 2) / r0) ^ (1 / n)) * kernelAt sigma x z := by
    refine (hint 0).mono' ?_ (ae_of_all _ fun z => ?_)
    · apply Continuous.aestronglyMeasurable
      unfold kernelAt
      have : Continuous fun z : ℝ × ℝ => (Real.sqrt (z.1 ^ 2 + z.2 ^ 2) / r0) ^ (1 / n) :=
        Continuous.rpow_const (by fun_prop) fun z => .inr (by positivity)
      fun_prop
    · rw [Real.norm_of_nonneg (mul_nonneg (Real.exp_pos _).le (hker z))]
      apply mul_le_mul_of_nonneg_right _ (hker z)
      rw [Nat.cast_zero, zero_div, Real.rpow_zero]
      exact Real.exp_le_one_iff.mpr (by
        have : 0 ≤ (Real.sqrt (z.1 ^ 2 + z.2 ^ 2) / r0) ^ (1 / n) := by positivity
        linarith)
  have hval : seriesValue x n rh sigma order = Real.exp alpha * ∫ z : ℝ × ℝ, (∑ k ∈ Finset.range order, (-1) ^ k / (k ! : ℝ) *
      ((Real.sqrt (z.1 ^ 2 + z.2 ^ 2) / r0) ^ (1 / n)) ^ k) * kernelAt sigma x z := series_integral hn hrh hs x order
  have hsint : Integrable fun z : ℝ × ℝ => (∑ k ∈ Finset.range order, (-1) ^ k / (k ! : ℝ) *
      ((Real.sqrt (z.1 ^ 2 + z.2 ^ 2) / r0) ^ (1 / n)) ^ k) * kernelAt sigma x z := by
    simp_rw [Finset.sum_mul, hpow, mul_assoc]
    exact integrable_finsetSum _ fun k _ => (hint k).const_mul _
  rw [hval, hsm, ← mul_sub, abs_mul, abs_of_pos (Real.exp_pos _), ← integral_sub hsint hfint]
  apply mul_le_mul_of_nonneg_left _ (Real.exp_pos _).le
  have hbound := norm_integral_le_of_norm_le (μ := volume)
    (f := fun z : ℝ × ℝ => (∑ k ∈ Finset.range order, (-1) ^ k / (k ! : ℝ) *
      ((Real.sqrt (z.1 ^ 2 + z.2 ^ 2) / r0) ^ (1 / n)) ^ k) * kernelAt sigma x z -
      Real.exp (-(Real.sqrt (z.1 ^ 2 + z.2 ^ 2) / r0) ^ (1 / n)) * kernelAt sigma x z)
    (g := fun z : ℝ × ℝ => (1 / (order ! : ℝ)) *
      ((Real.sqrt (z.1 ^ 2 + z.2 ^ 2) / r0) ^ ((order : ℝ) / n) * kernelAt sigma x z)) ((hint order).const_mul _)
    (ae_of_all _ fun z => by
      rw [← sub_mul, norm_mul, Real.norm_of_nonneg (hker z), Real.norm_eq_abs, abs_sub_comm, ← hpow, ← mul_assoc]
      apply mul_le_mul_of_nonneg_right _ (hker z)
      refine (exp_remainder order _ (by positivity)).trans (le_of_eq ?_)
      ring)
  rw [integral_const_mul, hmom, Real.norm_eq_abs] at hbound
  refine hbound.trans (le_of_eq ?_)
  rw [show Real.sqrt 2 * sigma * alpha ^ n / rh = Real.sqrt 2 * sigma / r0 by rw [hr0]; field_simp]
  ring

theorem exp_integrable {sigma : ℝ} (hs : 0 < sigma) (x : ℝ) :
    Integrable fun z : ℝ × ℝ => Real.exp ((z.1 ^ 2 + z.2 ^ 2) / (8 * sigma ^ 2)) * kernelAt sigma x z := by
  have hpi := Real.pi_pos
  have hb : 0 < 1 / (8 * sigma ^ 2) := by positivity
  have hint : Integrable fun z : ℝ × ℝ => (Real.exp (x ^ 2 / (2 * sigma ^ 2)) /
      (2 * Real.pi * sigma ^ 2)) * (Real.exp (-(1 / (8 * sigma ^ 2)) * z.1 ^ 2) *
        Real.exp (-(1 / (8 * sigma ^ 2)) * z.2 ^ 2)) :=
    ((integrable_exp_neg_mul_sq hb).mul_prod (integrable_exp_neg_mul_sq hb)).const_mul _
  refine hint.mono' ?_ (ae_of_all _ fun z => ?_)
  · apply Continuous.aestronglyMeasurable
    unfold kernelAt
    fun_prop
  · have hk : 0 ≤ kernelAt sigma x z := by
      unfold kernelAt
      positivity
    rw [Real.norm_of_nonneg (by positivity)]
    unfold kernelAt
    rw [← mul_div_assoc, div_mul_eq_mul_div, ← Real.exp_add, ← Real.exp_add, ← Real.exp_add]
    apply div_le_div_of_nonneg_right _ (by positivity)
    apply Real.exp_le_exp.mpr
    rw [← sub_nonneg]
    have : x ^ 2 / (2 * sigma ^ 2) + (-(1 / (8 * sigma ^ 2)) * z.1 ^ 2 + -(1 / (8 * sigma ^ 2)) * z.2 ^ 2) -
        ((z.1 ^ 2 + z.2 ^ 2) / (8 * sigma ^ 2) + -((x - z.1) ^ 2 + z.2 ^ 2) / (2 * sigma ^ 2)) =
        ((z.1 - 2 * x) ^ 2 + z.2 ^ 2) / (4 * sigma ^ 2) := by
      field_simp
      ring
    rw [this]
    positivity

/-- C157 (convergence): for indices over one half the series tends to the smoothed profile as terms are added. -/
theorem C157_convergence {n rh sigma : ℝ} (hn : 1 / 2 < n) (hrh : 0 < rh) (hs : 0 < sigma) (x : ℝ) :
    Tendsto (fun order => seriesValue x n rh sigma order) atTop
      (𝓝 (smoothed (fun r => sersicProfile r n rh) sigma x)) := by
  have hn0 : 0 < n := by linarith
  have hpi := Real.pi_pos
  set alpha := gammaincinv (2 * n) 0.5 with halpha
  have ha : 0 < alpha := (bn_spec hn0).1
  set r0 := rh / alpha ^ n with hr0
  have hr0p : 0 < r0 := by positivity
  have hker : ∀ z, 0 ≤ kernelAt sigma x z := by
    intro z
    unfold kernelAt
    positivity
  -- the power is below a small multiple of the square
  obtain ⟨C, hC⟩ : ∃ C : ℝ, ∀ z : ℝ × ℝ, (Real.sqrt (z.1 ^ 2 + z.2 ^ 2) / r0) ^ (1 / n) ≤
      (z.1 ^ 2 + z.2 ^ 2) / (8 * sigma ^ 2) + C := by
    set l : ℝ := (2 * n * r0 ^ 2 / (8 * sigma ^ 2)) ^ (1 / (2 * n)) with hl
    have hlp : 0 < l := by positivity
    have hpq : (2 * n).HolderConjugate (2 * n / (2 * n - 1)) := Real.HolderConjugate.conjExponent (by linarith)
    refine ⟨(1 / l) ^ (2 * n / (2 * n - 1)) / (2 * n / (2 * n - 1)), fun z => ?_⟩
    have hq : 0 ≤ z.1 ^ 2 + z.2 ^ 2 := by positivity
    have h := Real.young_inequality_of_nonneg (a := l * (Real.sqrt (z.1 ^ 2 + z.2 ^ 2) / r0) ^ (1 / n)) (b := 1 / l)
      (by positivity) (by positivity) hpq
    have e : (l * (Real.sqrt (z.1 ^ 2 + z.2 ^ 2) / r0) ^ (1 / n)) ^ (2 * n) / (2 * n) = (z.1 ^ 2 + z.2 ^ 2) / (8 * sigma ^ 2) := by
      rw [Real.mul_rpow (by positivity) (by positivity),
        ← Real.rpow_mul (show 0 ≤ Real.sqrt (z.1 ^ 2 + z.2 ^ 2) / r0 by positivity),
        show 1 / n * (2 * n) = ((2 : ℕ) : ℝ) by field_simp; norm_num, Real.rpow_natCast, div_pow, Real.sq_sqrt hq, hl,
        ← Real.rpow_mul (by positivity), show 1 / (2 * n) * (2 * n) = 1 by field_simp, Real.rpow_one]
      field_simp
    rw [e] at h
    refine le_trans (le_of_eq ?_) h
    field_simp
  have hval : ∀ order, seriesValue x n rh sigma order = Real.exp alpha * ∫ z : ℝ × ℝ, (∑ k ∈ Finset.range order,
      (-1) ^ k / (k ! : ℝ) * ((Real.sqrt (z.1 ^ 2 + z.2 ^ 2) / r0) ^ (1 / n)) ^ k) * kernelAt sigma x z :=
    fun order => series_integral hn0 hrh hs x order
  have hsm : smoothed (fun r => sersicProfile r n rh) sigma x = Real.exp alpha *
      ∫ z : ℝ × ℝ, Real.exp (-(Real.sqrt (z.1 ^ 2 + z.2 ^ 2) / r0) ^ (1 / n)) * kernelAt sigma x z := by
    rw [← integral_const_mul, smoothed]
    congr 1
    funext z
    simp only [sersicProfile, kernelAt]
    rw [← halpha, ← hr0, Real.exp_add, show (1.0 : ℝ) / n = 1 / n by norm_num]
    ring
  simp_rw [hval]
  rw [hsm]
  apply Tendsto.const_mul
  have hy : ∀ z : ℝ × ℝ, 0 ≤ (Real.sqrt (z.1 ^ 2 + z.2 ^ 2) / r0) ^ (1 / n) := fun z => by positivity
  refine tendsto_integral_of_dominated_convergence
    (fun z => Real.exp C * (Real.exp ((z.1 ^ 2 + z.2 ^ 2) / (8 * sigma ^ 2)) * kernelAt sigma x z)) (fun K => ?_)
    ((exp_integrable hs x).const_mul _) (fun K => ae_of_all _ fun z => ?_) (ae_of_all _ fun z => ?_)
  · apply Continuous.aestronglyMeasurable
    unfold kernelAt
    have : Continuous fun z : ℝ × ℝ => (Real.sqrt (z.1 ^ 2 + z.2 ^ 2) / r0) ^ (1 / n) :=
      Continuous.rpow_const (by fun_prop) fun z => .inr (by positivity)
    fun_prop
  · rw [norm_mul, Real.norm_of_nonneg (hker z), ← mul_assoc, ← Real.exp_add]
    apply mul_le_mul_of_nonneg_right _ (hker z)
    refine (norm_sum_le _ _).trans ?_
    refine le_trans (Finset.sum_le_sum (g := fun k => ((Real.sqrt (z.1 ^ 2 + z.2 ^ 2) / r0) ^ (1 / n)) ^ k / (k ! : ℝ))
      fun k _ => le_of_eq ?_) ((Real.sum_le_exp_of_nonneg (hy z) K).trans (Real.exp_le_exp.mpr (by linarith [hC z])))
    rw [norm_mul, norm_div, norm_pow, norm_neg, norm_one, one_pow, Real.norm_of_nonneg (pow_nonneg (hy z) k),
      Real.norm_of_nonneg (by positivity)]
    ring
  · apply Tendsto.mul_const
    have := (exp_hasSum (-(Real.sqrt (z.1 ^ 2 + z.2 ^ 2) / r0) ^ (1 / n))).tendsto_sum_nat
    refine this.congr fun K => Finset.sum_congr rfl fun k _ => ?_
    rw [neg_pow]
    ring

/-- The defaults of `sersic_profile`, with a smoothing of a tenth of the half-light radius. -/
example (x : ℝ) : Tendsto (fun order => seriesValue x 4 1 (1 / 10) order) atTop
    (𝓝 (smoothed (fun r => sersicProfile r 4 1) (1 / 10) x)) :=
  C157_convergence (by norm_num) one_pos (by norm_num) x

/-- C157 (profile): the target of the fit is the plain Sersic profile without smoothing and far out, and the series, where the
series is not below two thirds of the plain profile or within one dispersion of the centre. -/
theorem C157_profile (x n rh sigma : ℝ) (order : ℕ) :
    (sigma ≤ 0 → sersicSmoothed x n rh sigma order = sersicProfile x n rh) ∧
    (15 * sigma ≤ x → sersicSmoothed x n rh sigma order = sersicProfile x n rh) ∧
    (0 < sigma → x < 15 * sigma → (x ≤ sigma ∨ sersicProfile x n rh ≤ 3 / 2 * seriesValue x n rh sigma order) →
      sersicSmoothed x n rh sigma order = seriesValue x n rh sigma order) ∧
    (sigma < x → 2 / 3 * sersicProfile x n rh ≤ sersicSmoothed x n rh sigma order) := by
  have hpos : 0 < sersicProfile x n rh := Real.exp_pos _
  unfold sersicSmoothed
  refine ⟨fun h => if_pos h, fun h => ?_, fun h1 h2 h3 => ?_, fun h => ?_⟩
  · by_cases h0 : sigma ≤ 0
    · rw [if_pos h0]
    · rw [if_neg h0]
      simp only
      rw [if_pos (.inl (by linarith))]
  · rw [if_neg (not_le.mpr h1)]
    simp only
    have hx : x < sigma * 15 := by linarith
    rw [if_pos hx, if_neg]
    rintro (h | ⟨h4, h5⟩)
    · exact h hx
    · rcases h3 with h3 | h3
      · linarith
      · norm_num at h4
        linarith
  · by_cases h0 : sigma ≤ 0
    · rw [if_pos h0]
      linarith
    · rw [if_neg h0]
      simp only
      split_ifs with h1 h2 h2
      · linarith
      · simp only [not_or, not_and, not_not] at h2
        have := not_lt.mp fun hc => h2.2 hc h
        norm_num at this
        linarith
      · linarith
      · simp only [not_or, not_not] at h2
        exact absurd h2.1 h1

end

end Forcepho.Profile

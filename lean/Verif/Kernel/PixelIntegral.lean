import Verif.Kernel.Props
import Mathlib.Analysis.Calculus.MeanValue
import Mathlib.Analysis.SpecialFunctions.Integrals.Basic
import Mathlib.Analysis.Complex.ExponentialBounds

/-! # C156: the counts of a gaussian and its integral over a pixel

The kernel multiplies the value of a gaussian at the centre of a pixel by a correction of second order (common_kernel.cc:76-78).
Here the result is compared with the integral over the pixel. -/

set_option autoImplicit false

namespace Forcepho.Kernel

open Set

/-! ## Taylor's theorem with a bound of the fourth derivative -/

lemma step_bound {f f' B B' : ℝ → ℝ} (h0 : f 0 = 0) (hB0 : B 0 = 0) (hf : ∀ s, HasDerivAt f (f' s) s)
    (hB : ∀ s, HasDerivAt B (B' s) s) (h : ∀ s ∈ Icc (0 : ℝ) 1, |f' s| ≤ B' s) : ∀ s ∈ Icc (0 : ℝ) 1, |f s| ≤ B s := by
  intro s hs
  exact image_norm_le_of_norm_deriv_right_le_deriv_boundary (fun x _ => (hf x).continuousAt.continuousWithinAt)
    (fun x _ => (hf x).hasDerivWithinAt) (by rw [h0, hB0, norm_zero]) hB (fun x hx => h x ⟨hx.1, hx.2.le⟩) hs

lemma taylor4 {g0 g1 g2 g3 g4 : ℝ → ℝ} {M : ℝ} (h0 : ∀ s, HasDerivAt g0 (g1 s) s) (h1 : ∀ s, HasDerivAt g1 (g2 s) s)
    (h2 : ∀ s, HasDerivAt g2 (g3 s) s) (h3 : ∀ s, HasDerivAt g3 (g4 s) s) (hM : ∀ s ∈ Icc (0 : ℝ) 1, |g4 s| ≤ M) :
    |g0 1 - (g0 0 + g1 0 + g2 0 / 2 + g3 0 / 6)| ≤ M / 24 := by
  have e3 := step_bound (f := fun s => g3 s - g3 0) (f' := g4) (B := fun s => M * s) (B' := fun _ => M) (by simp) (by simp)
    (fun s => (h3 s).sub_const _) (fun s => by simpa using (hasDerivAt_id s).const_mul M) hM
  have e2 := step_bound (f := fun s => g2 s - g2 0 - g3 0 * s) (f' := fun s => g3 s - g3 0) (B := fun s => M / 2 * s ^ 2)
    (B' := fun s => M * s) (by simp) (by simp)
    (fun s => by
      have := ((h2 s).sub_const (g2 0)).sub ((hasDerivAt_id s).const_mul (g3 0))
      exact this.congr_deriv (by simp))
    (fun s => by
      have := ((hasDerivAt_id s).pow 2).const_mul (M / 2)
      refine this.congr_deriv ?_
      simp; ring) e3
  have e1 := step_bound (f := fun s => g1 s - g1 0 - g2 0 * s - g3 0 / 2 * s ^ 2) (f' := fun s => g2 s - g2 0 - g3 0 * s)
    (B := fun s => M / 6 * s ^ 3) (B' := fun s => M / 2 * s ^ 2) (by simp) (by simp)
    (fun s => by
      have := (((h1 s).sub_const (g1 0)).sub ((hasDerivAt_id s).const_mul (g2 0))).sub
        (((hasDerivAt_id s).pow 2).const_mul (g3 0 / 2))
      refine this.congr_deriv ?_
      simp; ring)
    (fun s => by
      have := ((hasDerivAt_id s).pow 3).const_mul (M / 6)
      refine this.congr_deriv ?_
      simp; ring) e2
  have e0 := step_bound (f := fun s => g0 s - g0 0 - g1 0 * s - g2 0 / 2 * s ^ 2 - g3 0 / 6 * s ^ 3)
    (f' := fun s => g1 s - g1 0 - g2 0 * s - g3 0 / 2 * s ^ 2)
    (B := fun s => M / 24 * s ^ 4) (B' := fun s => M / 6 * s ^ 3) (by simp) (by simp)
    (fun s => by
      have := ((((h0 s).sub_const (g0 0)).sub ((hasDerivAt_id s).const_mul (g1 0))).sub
        (((hasDerivAt_id s).pow 2).const_mul (g2 0 / 2))).sub (((hasDerivAt_id s).pow 3).const_mul (g3 0 / 6))
      refine this.congr_deriv ?_
      simp; ring)
    (fun s => by
      have := ((hasDerivAt_id s).pow 4).const_mul (M / 24)
      refine this.congr_deriv ?_
      simp; ring) e1
  have := e0 1 ⟨by norm_num, le_rfl⟩
  simp only [mul_one, one_pow] at this
  rw [show g0 1 - (g0 0 + g1 0 + g2 0 / 2 + g3 0 / 6) = g0 1 - g0 0 - g1 0 - g2 0 / 2 - g3 0 / 6 by ring]
  exact this

/-! ## A gaussian along a line -/

lemma hermite_bound (m : ℝ) (hm : 0 ≤ m) : |4 * m ^ 2 - 12 * m + 3| ≤ 3 * Real.exp m := by
  have h := Real.sum_le_exp_of_nonneg hm 4
  simp only [Finset.sum_range_succ, Finset.sum_range_zero, Nat.factorial] at h
  norm_num at h
  rw [abs_le]
  constructor
  · nlinarith [mul_nonneg hm (mul_nonneg hm hm), sq_nonneg (m - 9 / 11)]
  · nlinarith [mul_nonneg hm (sq_nonneg (m - 5 / 2))]

lemma fourth_bound (w c K : ℝ) (hc : 0 ≤ c) (hw : w ^ 2 ≤ c * K) :
    |(w ^ 4 - 6 * c * w ^ 2 + 3 * c ^ 2) * Real.exp (-(1 / 2) * K)| ≤ 3 * c ^ 2 := by
  rcases hc.eq_or_lt with rfl | hc
  · have : w ^ 2 = 0 := le_antisymm (by simpa using hw) (sq_nonneg w)
    have w0 : w = 0 := by simpa using this
    simp [w0]
  · have hm : 0 ≤ w ^ 2 / (2 * c) := by positivity
    have hk : w ^ 2 / (2 * c) ≤ 1 / 2 * K := by
      rw [div_le_iff₀ (by positivity)]
      linarith
    have e : w ^ 4 - 6 * c * w ^ 2 + 3 * c ^ 2 =
        c ^ 2 * (4 * (w ^ 2 / (2 * c)) ^ 2 - 12 * (w ^ 2 / (2 * c)) + 3) := by
      field_simp
      ring
    rw [e, abs_mul, abs_mul, abs_of_pos (Real.exp_pos _), abs_of_nonneg (sq_nonneg c)]
    have h1 := hermite_bound _ hm
    have h2 : Real.exp (-(1 / 2) * K) ≤ Real.exp (-(w ^ 2 / (2 * c))) := Real.exp_le_exp.2 (by linarith)
    calc c ^ 2 * |4 * (w ^ 2 / (2 * c)) ^ 2 - 12 * (w ^ 2 / (2 * c)) + 3| * Real.exp (-(1 / 2) * K)
        ≤ c ^ 2 * (3 * Real.exp (w ^ 2 / (2 * c))) * Real.exp (-(w ^ 2 / (2 * c))) := by gcongr
      _ = 3 * c ^ 2 * (Real.exp (w ^ 2 / (2 * c)) * Real.exp (-(w ^ 2 / (2 * c)))) := by ring
      _ = 3 * c ^ 2 := by rw [← Real.exp_add, add_neg_cancel, Real.exp_zero, mul_one]

/-- The value of a gaussian at a displaced point against its Taylor polynomial of third order. -/
lemma line_bound (Q b c : ℝ) (hc : 0 ≤ c) (hd : b ^ 2 ≤ Q * c) :
    |Real.exp (-(1 / 2) * (Q + 2 * b + c)) -
      Real.exp (-(1 / 2) * Q) * (1 - b + (b ^ 2 - c) / 2 + (3 * b * c - b ^ 3) / 6)| ≤ c ^ 2 / 8 := by
  have hE : ∀ s : ℝ, HasDerivAt (fun s : ℝ => Real.exp (-(1 / 2) * (Q + 2 * b * s + c * s ^ 2)))
      (-(b + c * s) * Real.exp (-(1 / 2) * (Q + 2 * b * s + c * s ^ 2))) s := by
    intro s
    have h1 : HasDerivAt (fun s : ℝ => -(1 / 2) * (Q + 2 * b * s + c * s ^ 2)) (-(b + c * s)) s := by
      have := ((((hasDerivAt_id s).const_mul (2 * b)).const_add Q).add (((hasDerivAt_id s).pow 2).const_mul c)).const_mul
        (-(1 / 2) : ℝ)
      refine this.congr_deriv ?_
      simp; ring
    exact (h1.exp).congr_deriv (by ring)
  have hw : ∀ s : ℝ, HasDerivAt (fun s : ℝ => b + c * s) c s := fun s => by
    simpa using ((hasDerivAt_id s).const_mul c).const_add b
  have key := taylor4 (M := 3 * c ^ 2)
    (g0 := fun s => Real.exp (-(1 / 2) * (Q + 2 * b * s + c * s ^ 2)))
    (g1 := fun s => -(b + c * s) * Real.exp (-(1 / 2) * (Q + 2 * b * s + c * s ^ 2)))
    (g2 := fun s => ((b + c * s) ^ 2 - c) * Real.exp (-(1 / 2) * (Q + 2 * b * s + c * s ^ 2)))
    (g3 := fun s => (3 * c * (b + c * s) - (b + c * s) ^ 3) * Real.exp (-(1 / 2) * (Q + 2 * b * s + c * s ^ 2)))
    (g4 := fun s => ((b + c * s) ^ 4 - 6 * c * (b + c * s) ^ 2 + 3 * c ^ 2) *
      Real.exp (-(1 / 2) * (Q + 2 * b * s + c * s ^ 2))) hE
    (fun s => ((hw s).neg.mul (hE s)).congr_deriv (by simp only [Pi.neg_apply]; ring))
    (fun s => ((((hw s).pow 2).sub_const c).mul (hE s)).congr_deriv (by simp; ring))
    (fun s => ((((hw s).const_mul (3 * c)).sub ((hw s).pow 3)).mul (hE s)).congr_deriv (by simp; ring))
    (fun s _ => fourth_bound _ c _ hc (by nlinarith))
  simp only [mul_one, mul_zero, add_zero, one_pow, ne_eq, OfNat.ofNat_ne_zero, not_false_eq_true, zero_pow] at key
  refine le_trans (le_of_eq ?_) (key.trans (le_of_eq (by ring)))
  congr 1
  ring

/-! ## Integrals of polynomials over a pixel -/

lemma quartic (a0 a1 a2 a3 a4 : ℝ) :
    ∫ y in (-(1 / 2) : ℝ)..(1 / 2), (a0 + a1 * y + a2 * y ^ 2 + a3 * y ^ 3 + a4 * y ^ 4) = a0 + a2 / 12 + a4 / 80 := by
  have hi : ∀ (f : ℝ → ℝ), Continuous f → IntervalIntegrable f MeasureTheory.volume (-(1 / 2) : ℝ) (1 / 2) :=
    fun f hf => hf.intervalIntegrable _ _
  rw [intervalIntegral.integral_add (hi _ (by fun_prop)) (hi _ (by fun_prop)),
    intervalIntegral.integral_add (hi _ (by fun_prop)) (hi _ (by fun_prop)),
    intervalIntegral.integral_add (hi _ (by fun_prop)) (hi _ (by fun_prop)),
    intervalIntegral.integral_add (hi _ (by fun_prop)) (hi _ (by fun_prop)),
    intervalIntegral.integral_const_mul, intervalIntegral.integral_const_mul, intervalIntegral.integral_const_mul,
    intervalIntegral.integral_const_mul, integral_pow, integral_pow, integral_pow, integral_id,
    intervalIntegral.integral_const]
  norm_num
  ring

/-- The quadratic form of a gaussian. -/
def form (a b c x y : ℝ) : ℝ := a * x ^ 2 + 2 * b * x * y + c * y ^ 2

lemma form_nonneg (a b c : ℝ) (ha : 0 < a) (hd : 0 < a * c - b * b) (x y : ℝ) : 0 ≤ form a b c x y := by
  have : a * form a b c x y = (a * x + b * y) ^ 2 + (a * c - b * b) * y ^ 2 := by rw [form]; ring
  have h : 0 ≤ a * form a b c x y := by rw [this]; positivity
  exact nonneg_of_mul_nonneg_right h ha

lemma form_le (a b c : ℝ) (ha : 0 < a) (hd : 0 < a * c - b * b) (x y : ℝ) :
    form a b c x y ≤ (a + c) * (x ^ 2 + y ^ 2) := by
  have h := form_nonneg a b c ha hd y (-x)
  rw [form] at h ⊢
  nlinarith

lemma form_cauchy (a b c : ℝ) (hd : 0 < a * c - b * b) (x y u v : ℝ) :
    ((a * x + b * y) * u + (c * y + b * x) * v) ^ 2 ≤ form a b c x y * form a b c u v := by
  have : form a b c x y * form a b c u v - ((a * x + b * y) * u + (c * y + b * x) * v) ^ 2 =
      (a * c - b * b) * (x * v - y * u) ^ 2 := by
    rw [form, form]; ring
  have h : 0 ≤ (a * c - b * b) * (x * v - y * u) ^ 2 := by positivity
  linarith

/-- The integral of a gaussian over the pixel around a point is its value there times the correction of second order, up to
seven in 1440 of the square of the trace of its precision matrix. -/
lemma pixel_bound (a b c : ℝ) (ha : 0 < a) (hd : 0 < a * c - b * b) (x y : ℝ) :
    |(∫ u in (-(1 / 2) : ℝ)..(1 / 2), ∫ v in (-(1 / 2) : ℝ)..(1 / 2), Real.exp (-(1 / 2) * form a b c (x + u) (y + v))) -
      Real.exp (-(1 / 2) * form a b c x y) * (1 + ((a * x + b * y) ^ 2 + (c * y + b * x) ^ 2 - a - c) / 24)| ≤
      7 / 1440 * (a + c) ^ 2 := by
  set E := Real.exp (-(1 / 2) * form a b c x y) with hE
  set vx := a * x + b * y with hvx
  set vy := c * y + b * x with hvy
  -- the Taylor polynomial
  set T : ℝ → ℝ → ℝ := fun u v => E * (1 - (vx * u + vy * v) + ((vx * u + vy * v) ^ 2 - form a b c u v) / 2 +
    (3 * (vx * u + vy * v) * form a b c u v - (vx * u + vy * v) ^ 3) / 6) with hT
  have hpt : ∀ u v : ℝ, |Real.exp (-(1 / 2) * form a b c (x + u) (y + v)) - T u v| ≤
      (a + c) ^ 2 / 8 * (u ^ 2 + v ^ 2) ^ 2 := by
    intro u v
    have h := line_bound (form a b c x y) (vx * u + vy * v) (form a b c u v) (form_nonneg a b c ha hd u v)
      (form_cauchy a b c hd x y u v)
    have e : form a b c (x + u) (y + v) = form a b c x y + 2 * (vx * u + vy * v) + form a b c u v := by
      simp only [form, hvx, hvy]; ring
    rw [e]
    refine h.trans ?_
    have h1 := form_le a b c ha hd u v
    have h2 := form_nonneg a b c ha hd u v
    calc form a b c u v ^ 2 / 8 ≤ ((a + c) * (u ^ 2 + v ^ 2)) ^ 2 / 8 := by gcongr
      _ = _ := by ring
  have hTint : ∫ u in (-(1 / 2) : ℝ)..(1 / 2), ∫ v in (-(1 / 2) : ℝ)..(1 / 2), T u v =
      E * (1 + (vx ^ 2 + vy ^ 2 - a - c) / 24) := by
    have inner : ∀ u : ℝ, ∫ v in (-(1 / 2) : ℝ)..(1 / 2), T u v =
        (E * (1 + (vy ^ 2 - c) / 24)) + (E * (-vx + (3 * (vx * c + vy * (2 * b)) - 3 * vx * vy ^ 2) / 72)) * u +
          (E * ((vx ^ 2 - a) / 2)) * u ^ 2 + (E * ((3 * vx * a - vx ^ 3) / 6)) * u ^ 3 + 0 * u ^ 4 := by
      intro u
      have := quartic (E * (1 - vx * u + (vx ^ 2 * u ^ 2 - a * u ^ 2) / 2 + (3 * vx * u * (a * u ^ 2) - vx ^ 3 * u ^ 3) / 6))
        (E * (-vy + (2 * vx * u * vy - 2 * b * u) / 2 + (3 * (vx * u * (2 * b * u) + vy * (a * u ^ 2)) - 3 * vx ^ 2 * u ^ 2 * vy) / 6))
        (E * ((vy ^ 2 - c) / 2 + (3 * (vx * u * c + vy * (2 * b * u)) - 3 * vx * u * vy ^ 2) / 6))
        (E * ((3 * vy * c - vy ^ 3) / 6)) 0
      rw [show (fun v : ℝ => T u v) = fun v => (E * (1 - vx * u + (vx ^ 2 * u ^ 2 - a * u ^ 2) / 2 +
          (3 * vx * u * (a * u ^ 2) - vx ^ 3 * u ^ 3) / 6)) +
        (E * (-vy + (2 * vx * u * vy - 2 * b * u) / 2 + (3 * (vx * u * (2 * b * u) + vy * (a * u ^ 2)) -
          3 * vx ^ 2 * u ^ 2 * vy) / 6)) * v +
        (E * ((vy ^ 2 - c) / 2 + (3 * (vx * u * c + vy * (2 * b * u)) - 3 * vx * u * vy ^ 2) / 6)) * v ^ 2 +
        (E * ((3 * vy * c - vy ^ 3) / 6)) * v ^ 3 + 0 * v ^ 4 by
          funext v
          simp only [hT, form]
          ring, this]
      ring
    simp_rw [inner]
    rw [quartic]
    ring
  have hcont : ∀ u : ℝ, Continuous fun v : ℝ => Real.exp (-(1 / 2) * form a b c (x + u) (y + v)) := by
    intro u
    simp only [form]
    fun_prop
  have hTc : ∀ u : ℝ, Continuous fun v : ℝ => T u v := by
    intro u
    simp only [hT, form]
    fun_prop
  have hc2 : Continuous fun u : ℝ => ∫ v in (-(1 / 2) : ℝ)..(1 / 2), Real.exp (-(1 / 2) * form a b c (x + u) (y + v)) := by
    apply intervalIntegral.continuous_parametric_intervalIntegral_of_continuous'
    simp only [form, Function.uncurry_def]
    fun_prop
  have hT2 : Continuous fun u : ℝ => ∫ v in (-(1 / 2) : ℝ)..(1 / 2), T u v := by
    apply intervalIntegral.continuous_parametric_intervalIntegral_of_continuous'
    simp only [hT, form, Function.uncurry_def]
    fun_prop
  rw [← hTint, ← intervalIntegral.integral_sub (hc2.intervalIntegrable _ _) (hT2.intervalIntegrable _ _)]
  have hin : ∀ u : ℝ, |(∫ v in (-(1 / 2) : ℝ)..(1 / 2), Real.exp (-(1 / 2) * form a b c (x + u) (y + v))) -
      ∫ v in (-(1 / 2) : ℝ)..(1 / 2), T u v| ≤
      (a + c) ^ 2 / 8 * (1 / 80) + 0 * u + ((a + c) ^ 2 / 8 * (1 / 6)) * u ^ 2 + 0 * u ^ 3 + ((a + c) ^ 2 / 8) * u ^ 4 := by
    intro u
    rw [← intervalIntegral.integral_sub ((hcont u).intervalIntegrable _ _) ((hTc u).intervalIntegrable _ _)]
    have hq := quartic ((a + c) ^ 2 / 8 * u ^ 4) 0 ((a + c) ^ 2 / 8 * (2 * u ^ 2)) 0 ((a + c) ^ 2 / 8)
    have h := intervalIntegral.norm_integral_le_of_norm_le (a := -(1 / 2)) (b := 1 / 2) (μ := MeasureTheory.volume)
      (f := fun v => Real.exp (-(1 / 2) * form a b c (x + u) (y + v)) - T u v)
      (g := fun v => (a + c) ^ 2 / 8 * u ^ 4 + 0 * v + (a + c) ^ 2 / 8 * (2 * u ^ 2) * v ^ 2 + 0 * v ^ 3 +
        (a + c) ^ 2 / 8 * v ^ 4) (by norm_num)
      (MeasureTheory.ae_of_all _ fun v _ => (hpt u v).trans (le_of_eq (by ring)))
      (Continuous.intervalIntegrable (by fun_prop) _ _)
    rw [hq] at h
    exact h.trans (le_of_eq (by ring))
  have hq := quartic ((a + c) ^ 2 / 8 * (1 / 80)) 0 ((a + c) ^ 2 / 8 * (1 / 6)) 0 ((a + c) ^ 2 / 8)
  have h := intervalIntegral.norm_integral_le_of_norm_le (a := -(1 / 2)) (b := 1 / 2) (μ := MeasureTheory.volume)
    (f := fun u => (∫ v in (-(1 / 2) : ℝ)..(1 / 2), Real.exp (-(1 / 2) * form a b c (x + u) (y + v))) -
      ∫ v in (-(1 / 2) : ℝ)..(1 / 2), T u v)
    (g := fun u => (a + c) ^ 2 / 8 * (1 / 80) + 0 * u + ((a + c) ^ 2 / 8 * (1 / 6)) * u ^ 2 + 0 * u ^ 3 +
      ((a + c) ^ 2 / 8) * u ^ 4) (by norm_num)
    (MeasureTheory.ae_of_all _ fun u _ => hin u) (Continuous.intervalIntegrable (by fun_prop) _ _)
  rw [hq] at h
  exact h.trans (le_of_eq (by ring))

end Forcepho.Kernel

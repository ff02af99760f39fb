import Verif.Em.Model
import Mathlib.Analysis.SpecialFunctions.Complex.Arg
import Mathlib.Tactic.Linarith
import Mathlib.Tactic.LinearCombination
import Mathlib.Tactic.FieldSimp

/-! # C171: the gaussians drawn for a PSF fit
(forcepho/mixtures/utils_em.py `plot_model`, `draw_ellipses`) -/

set_option autoImplicit false

namespace Forcepho.Em.Ellipses

noncomputable section

/-- A symmetric matrix `[[xx, xy], [xy, yy]]`. -/
structure Sym where
  xx : ℝ
  xy : ℝ
  yy : ℝ

/-- The covariance matrix (utils_em.py:193-197): the fourth parameter is the width along `y`, the fifth that along `x`. -/
def covariance (c : Comp) : Sym :=
  let sy := c.sx
  let sx := c.sy
  let sxy := c.rho * sx * sy
  ⟨sx ^ 2, sxy, sy ^ 2⟩

/-- What `np.linalg.eig` gives for a symmetric matrix: two values and the first column of the vectors, of unit length. -/
structure Eig where
  val1 : ℝ
  val2 : ℝ
  v0 : ℝ
  v1 : ℝ

/-- The values and the first vector are those of the matrix (specification of `np.linalg.eig`). -/
def IsEig (S : Sym) (e : Eig) : Prop :=
  e.v0 ^ 2 + e.v1 ^ 2 = 1 ∧ S.xx * e.v0 + S.xy * e.v1 = e.val1 * e.v0 ∧ S.xy * e.v0 + S.yy * e.v1 = e.val1 * e.v1 ∧
  e.val1 + e.val2 = S.xx + S.yy

/-- A matplotlib ellipse: centre, full width, full height, angle in degrees. -/
structure Ell where
  x : ℝ
  y : ℝ
  width : ℝ
  height : ℝ
  angle : ℝ

/-- One ellipse of `draw_ellipses` (utils_em.py:191-202). -/
def ellipse (c : Comp) (e : Eig) : Ell :=
  { x := c.muy
    y := c.mux
    width := 2 * Real.sqrt e.val1
    height := 2 * Real.sqrt e.val2
    angle := Complex.arg ⟨e.v0, e.v1⟩ * 180 / Real.pi }

/-- Matplotlib's ellipse: the points inside it (specification). -/
def Ell.Inside (E : Ell) (x y : ℝ) : Prop :=
  let t := E.angle * Real.pi / 180
  (((x - E.x) * Real.cos t + (y - E.y) * Real.sin t) / (E.width / 2)) ^ 2 +
    ((-(x - E.x) * Real.sin t + (y - E.y) * Real.cos t) / (E.height / 2)) ^ 2 ≤ 1

/-- C171, ellipses. In the panels the first index of the image is vertical. The ellipse drawn for a gaussian of positive amplitude contains
exactly the points of the panel where the gaussian is at least `exp (-1/2)` of its peak: it is the contour of one standard deviation, at the
place, with the shape and in the orientation of the image shown. -/
theorem C171_ellipse (c : Comp) (e : Eig) (hamp : 0 < c.amp) (hx : 0 < c.sx) (hy : 0 < c.sy) (hrho : c.rho ^ 2 < 1)
    (he : IsEig (covariance c) e) (x y : ℝ) :
    (ellipse c e).Inside x y ↔ Real.exp (-(1 / 2)) * mvnPdf c.mux c.muy c ≤ mvnPdf y x c := by
  obtain ⟨h1, h2, h3, h4⟩ := he
  simp only [covariance] at h2 h3 h4
  obtain ⟨amp, mux, muy, sx, sy, rho⟩ := c
  obtain ⟨l1, l2, p, q⟩ := e
  simp only at *
  have hl2 : l2 = sy ^ 2 + sx ^ 2 - l1 := by linarith
  have hr : 0 < 1 - rho ^ 2 := by linarith
  have hdet : l1 * l2 = sx ^ 2 * sy ^ 2 * (1 - rho ^ 2) := by
    subst hl2
    linear_combination (-(p * (sx ^ 2 - l1)) + q * (rho * sy * sx)) * h2 + (-(q * (sy ^ 2 - l1)) + p * (rho * sy * sx)) * h3 +
      (l1 ^ 2 - l1 * (sx ^ 2 + sy ^ 2) + sx ^ 2 * sy ^ 2 * (1 - rho ^ 2)) * h1
  have hdpos : 0 < l1 * l2 := by
    rw [hdet]
    exact mul_pos (mul_pos (pow_pos hx 2) (pow_pos hy 2)) hr
  have hsum : 0 < l1 + l2 := by
    rw [h4]
    have := pow_pos hx 2
    have := pow_pos hy 2
    linarith
  have hl1 : 0 < l1 := by
    by_contra h
    have h' : l1 ≤ 0 := not_lt.1 h
    have : 0 < l2 := by linarith
    nlinarith
  have hl2' : 0 < l2 := by
    by_contra h
    have h' : l2 ≤ 0 := not_lt.1 h
    nlinarith
  have hnorm : ‖(⟨p, q⟩ : ℂ)‖ = 1 := by
    rw [Complex.norm_def, Complex.normSq_mk, ← pow_two, ← pow_two, h1, Real.sqrt_one]
  have hne : (⟨p, q⟩ : ℂ) ≠ 0 := by
    intro h
    rw [h, norm_zero] at hnorm
    exact zero_ne_one hnorm
  have hang : Complex.arg ⟨p, q⟩ * 180 / Real.pi * Real.pi / 180 = Complex.arg ⟨p, q⟩ := by
    have := Real.pi_ne_zero
    field_simp
  have hcos : Real.cos (Complex.arg ⟨p, q⟩) = p := by
    rw [Complex.cos_arg hne, hnorm, div_one]
  have hsin : Real.sin (Complex.arg ⟨p, q⟩) = q := by
    rw [Complex.sin_arg, hnorm, div_one]
  have hmah : ∀ u v : ℝ, ((u * p + v * q) / Real.sqrt l1) ^ 2 + ((-u * q + v * p) / Real.sqrt l2) ^ 2 =
      1 / (1 - rho ^ 2) * ((v / sx) ^ 2 + (u / sy) ^ 2 - 2 * rho * (v / sx) * (u / sy)) := by
    intro u v
    rw [div_pow, div_pow, Real.sq_sqrt hl1.le, Real.sq_sqrt hl2'.le]
    have e1 : (u * p + v * q) ^ 2 / l1 + (-u * q + v * p) ^ 2 / l2 =
        ((u * p + v * q) ^ 2 * l2 + (-u * q + v * p) ^ 2 * l1) / (l1 * l2) := by
      have := hl1.ne'
      have := hl2'.ne'
      field_simp
    rw [e1, hdet]
    have e2 : (u * p + v * q) ^ 2 * l2 + (-u * q + v * p) ^ 2 * l1 = sx ^ 2 * u ^ 2 - 2 * (rho * sy * sx) * u * v + sy ^ 2 * v ^ 2 := by
      subst hl2
      have ha : sy ^ 2 = l1 * p ^ 2 + (sy ^ 2 + sx ^ 2 - l1) * q ^ 2 := by
        linear_combination p * h2 - q * h3 - sy ^ 2 * h1
      have hb : rho * sy * sx = (l1 - (sy ^ 2 + sx ^ 2 - l1)) * p * q := by
        linear_combination q * h2 + p * h3 - rho * sy * sx * h1
      have hd : sx ^ 2 = l1 * q ^ 2 + (sy ^ 2 + sx ^ 2 - l1) * p ^ 2 := by
        linear_combination q * h3 - p * h2 - sx ^ 2 * h1
      linear_combination (-(u ^ 2)) * hd + 2 * u * v * hb - v ^ 2 * ha
    rw [e2]
    have := hx.ne'
    have := hy.ne'
    have := hr.ne'
    field_simp
    ring
  have hA : 0 < amp / (2 * Real.pi * sx * sy * Real.sqrt (1 - rho ^ 2)) := by
    have := Real.pi_pos
    have := Real.sqrt_pos.2 hr
    positivity
  have hE : (ellipse ⟨amp, mux, muy, sx, sy, rho⟩ ⟨l1, l2, p, q⟩).Inside x y ↔
      1 / (1 - rho ^ 2) * (((y - mux) / sx) ^ 2 + ((x - muy) / sy) ^ 2 - 2 * rho * ((y - mux) / sx) * ((x - muy) / sy)) ≤ 1 := by
    simp only [ellipse, Ell.Inside, hang, hcos, hsin]
    rw [mul_div_cancel_left₀ _ two_ne_zero, mul_div_cancel_left₀ _ two_ne_zero, hmah]
  rw [hE]
  simp only [mvnPdf, sub_self, zero_div]
  norm_num only [ne_eq, OfNat.ofNat_ne_zero, not_false_eq_true, zero_pow, mul_zero, add_zero, sub_zero, Real.exp_zero, mul_one]
  rw [mul_comm (Real.exp _), mul_le_mul_iff_right₀ hA, Real.exp_le_exp]
  set m := ((y - mux) / sx) ^ 2 + ((x - muy) / sy) ^ 2 - 2 * rho * ((y - mux) / sx) * ((x - muy) / sy) with hm
  have e3 : -(1 / 2 : ℝ) / (1 - rho ^ 2) * m = -(1 / 2) * (1 / (1 - rho ^ 2) * m) := by
    ring
  rw [e3]
  constructor <;> intro h <;> linarith

/-- The hypotheses are met: width 1 along the first axis, 2 along the second, no correlation. -/
example : IsEig (covariance ⟨1, 3, 5, 1, 2, 0⟩) ⟨4, 1, 1, 0⟩ := by
  simp only [IsEig, covariance]
  norm_num

/-- The position in the colour map (0 to 1) of an ellipse (utils_em.py:206: `cmap(params[i, 0])`), for amplitudes from 0 to 1. -/
def shade (c : Comp) : ℝ := c.amp

/-- The value that the colour bar (utils_em.py:144-148, 176) gives to a position in the colour map, if its scale runs from `lo` to `hi`.
The levels are 0 to 0.5, so that `lo` and `hi` are within these. -/
def barValue (lo hi t : ℝ) : ℝ := lo + t * (hi - lo)

/-- C171, refuted (colours). The colour of an ellipse, read off the colour bar beside it, is not the amplitude: every amplitude above twice
the lower end of the scale is read too low, and none is read as more than a half. For a scale from 0 to 0.5 it is read as half its value. -/
theorem C171_colour_refuted (lo hi : ℝ) (h0 : 0 ≤ lo) (h1 : lo < hi) (h2 : hi ≤ 1 / 2) (c : Comp) (ha1 : c.amp ≤ 1) :
    (2 * lo < c.amp → barValue lo hi (shade c) < c.amp) ∧ barValue lo hi (shade c) ≤ 1 / 2 ∧
    barValue 0 (1 / 2) (shade c) = c.amp / 2 := by
  simp only [barValue, shade]
  refine ⟨?_, ?_, by ring⟩
  · intro h
    have : c.amp * (hi - lo) ≤ c.amp * (1 / 2) := mul_le_mul_of_nonneg_left (by linarith) (by linarith)
    linarith
  · have : c.amp * (hi - lo) ≤ 1 * (hi - lo) := mul_le_mul_of_nonneg_right ha1 (by linarith)
    linarith

/-- The panels of one page (utils_em.py:153-172) at one pixel: truth, model, and the residual, the logarithm of the ratio by default.
The images are shown with the first index vertical. -/
def pagePanels (logResid : Bool) (truth model : ℝ) : ℝ × ℝ × ℝ :=
  (truth, model, if logResid then Real.log (truth / model) / Real.log 10 else truth - model)

/-- C171, panels. Where image and model are positive, either residual is zero just if they agree, positive just if the image is brighter, and
gives the image back from the model. -/
theorem C171_panels (logResid : Bool) (truth model : ℝ) (ht : 0 < truth) (hm : 0 < model) :
    (pagePanels logResid truth model).1 = truth ∧ (pagePanels logResid truth model).2.1 = model ∧
    ((pagePanels logResid truth model).2.2 = 0 ↔ truth = model) ∧ (0 < (pagePanels logResid truth model).2.2 ↔ model < truth) ∧
    (truth = if logResid then model * Real.exp ((pagePanels logResid truth model).2.2 * Real.log 10)
      else model + (pagePanels logResid truth model).2.2) := by
  have h10 : 0 < Real.log 10 := Real.log_pos (by norm_num)
  have hq : 0 < truth / model := div_pos ht hm
  cases logResid with
  | false =>
    simp only [pagePanels, Bool.false_eq_true, if_false]
    exact ⟨trivial, trivial, sub_eq_zero, sub_pos, by ring⟩
  | true =>
    simp only [pagePanels, if_true]
    refine ⟨trivial, trivial, ?_, ?_, ?_⟩
    · constructor
      · intro h
        have h' : Real.log (truth / model) = 0 := by
          rcases div_eq_zero_iff.1 h with h | h
          · exact h
          · exact absurd h h10.ne'
        have := Real.exp_log hq
        rw [h', Real.exp_zero] at this
        exact ((div_eq_one_iff_eq hm.ne').1 this.symm)
      · intro h
        rw [h, div_self hm.ne', Real.log_one, zero_div]
    · rw [div_pos_iff_of_pos_right h10, Real.log_pos_iff hq.le, one_lt_div hm]
    · rw [div_mul_cancel₀ _ h10.ne', Real.exp_log hq, mul_div_cancel₀ _ hm.ne']

end

end Forcepho.Em.Ellipses

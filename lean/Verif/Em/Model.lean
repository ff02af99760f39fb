import Mathlib.Analysis.SpecialFunctions.Log.Basic
import Mathlib.Analysis.SpecialFunctions.Sqrt
import Mathlib.Analysis.SpecialFunctions.Trigonometric.Basic

/-!
# Fitting a gaussian mixture to a PSF image by EM (`forcepho/mixtures/psf_mix_em.py`)

Arithmetic is exact over the reals.  An image is a function on `Fin nx × Fin ny` (the numpy axes in
order).  The flat parameter vector of length `6 * num_mix` is a function from component number to
`Comp`; the six slots are the fields of `Comp` in the order of the code.  Division by zero is `0` in
Lean and nan in numpy, so every theorem proves that the denominators are not zero (or assumes it).
-/

set_option autoImplicit false

namespace Forcepho.Em

open Finset

noncomputable section

/-- One gaussian: the six consecutive parameters of a component
(`forcepho/mixtures/psf_mix_em.py:53`, slot order of lines 157-158). -/
structure Comp where
  amp : ℝ
  mux : ℝ
  muy : ℝ
  sx : ℝ
  sy : ℝ
  rho : ℝ

/-- A pixel of an image of shape `(nx, ny)`. -/
abbrev Pix (nx ny : ℕ) := Fin nx × Fin ny

variable {nx ny K : ℕ}

/-- `loc_x`: the first index of the pixel (`psf_mix_em.py:9`, `:33`, `:153`). -/
def locX (p : Pix nx ny) : ℝ := (p.1.val : ℝ)

/-- `loc_y`: the second index of the pixel (`psf_mix_em.py:10`, `:34`, `:154`). -/
def locY (p : Pix nx ny) : ℝ := (p.2.val : ℝ)

/-- `noncentral_moment(image, ex, ey)` (`psf_mix_em.py:7-11`). -/
def noncentralMoment (im : Pix nx ny → ℝ) (ex ey : ℕ) : ℝ :=
  ∑ p, im p * locX p ^ ex * locY p ^ ey

/-- `central_moment(image, ex, ey)` (`psf_mix_em.py:14-20`). -/
def centralMoment (im : Pix nx ny → ℝ) (ex ey : ℕ) : ℝ :=
  let mx := (∑ p, im p * locX p) / ∑ p, im p
  let my := (∑ p, im p * locY p) / ∑ p, im p
  ∑ p, im p * (locX p - mx) ^ ex * (locY p - my) ^ ey

/-- `mean_params(image)` (`psf_mix_em.py:24-26`). -/
def meanParams (im : Pix nx ny → ℝ) : ℝ × ℝ :=
  (noncentralMoment im 1 0 / ∑ p, im p, noncentralMoment im 0 1 / ∑ p, im p)

/-- `cov_params(image)`: widths and correlation (`psf_mix_em.py:30-38`). -/
def covParams (im : Pix nx ny → ℝ) : ℝ × ℝ × ℝ :=
  let m := meanParams im
  let sx := Real.sqrt ((∑ p, im p * (locX p - m.1) ^ 2) / ∑ p, im p)
  let sy := Real.sqrt ((∑ p, im p * (locY p - m.2) ^ 2) / ∑ p, im p)
  let rho := (∑ p, im p * (locX p - m.1) * (locY p - m.2) / ∑ q, im q) / (sx * sy)
  (sx, sy, rho)

/-- `easy_init(image)`: one gaussian with the total flux and the moments of the image
(`psf_mix_em.py:41-42`). -/
def easyInit (im : Pix nx ny → ℝ) : Comp :=
  { amp := ∑ p, im p
    mux := (meanParams im).1
    muy := (meanParams im).2
    sx := (covParams im).1
    sy := (covParams im).2.1
    rho := (covParams im).2.2 }

/-- `mvn_pdf(x, y, params)` (`psf_mix_em.py:52-58`). -/
def mvnPdf (x y : ℝ) (c : Comp) : ℝ :=
  let A := c.amp / (2 * Real.pi * c.sx * c.sy * Real.sqrt (1 - c.rho ^ 2))
  let dx := (x - c.mux) / c.sx
  let dy := (y - c.muy) / c.sy
  let exparg := -0.5 / (1 - c.rho ^ 2) * (dx ^ 2 + dy ^ 2 - 2 * c.rho * dx * dy)
  A * Real.exp exparg

/-- `mvn_pdf_2d(params, x_max, y_max)`: the gaussian sampled at the pixel indices
(`psf_mix_em.py:61-65`). -/
def mvnPdf2d (c : Comp) (p : Pix nx ny) : ℝ := mvnPdf (p.1.val : ℝ) (p.2.val : ℝ) c

/-- `mvn_pdf_2d_mix_fn(num_mix, x_max, y_max)(params)`: the sum over the components
(`psf_mix_em.py:68-74`). -/
def mixImage (ps : Fin K → Comp) (p : Pix nx ny) : ℝ := ∑ k, mvnPdf2d (ps k) p

/-- `normalized(weights, axis=2, order=1)` at one pixel: division by the sum of absolute values, by
one where that is zero (`psf_mix_em.py:78-81`, called at `:146`). -/
def normalized (w : Fin K → ℝ) (k : Fin K) : ℝ :=
  let l := ∑ j, |w j|
  w k / (if l = 0 then 1 else l)

/-- The responsibilities `weights[x, y, k]` after scaling (`psf_mix_em.py:143-146`). -/
def weights (ps : Fin K → Comp) (p : Pix nx ny) (k : Fin K) : ℝ :=
  normalized (fun j => mvnPdf2d (ps j) p) k

/-- `Nk_list[k]` (`psf_mix_em.py:147-149`). -/
def nk (im : Pix nx ny → ℝ) (ps : Fin K → Comp) (k : Fin K) : ℝ :=
  ∑ p, im p * weights ps p k

/-- One pass of the EM loop: the new parameters (`psf_mix_em.py:142-173`). -/
def emStep (im : Pix nx ny → ℝ) (ps : Fin K → Comp) (k : Fin K) : Comp :=
  let N := nk im ps k
  let mux := (∑ p, im p * weights ps p k * locX p) / N
  let muy := (∑ p, im p * weights ps p k * locY p) / N
  let sx := Real.sqrt ((∑ p, im p * weights ps p k * (locX p - mux) ^ 2) / N)
  let sy := Real.sqrt ((∑ p, im p * weights ps p k * (locY p - muy) ^ 2) / N)
  { amp := N / ∑ j, nk im ps j
    mux := mux
    muy := muy
    sx := sx
    sy := sy
    rho := (∑ p, im p * weights ps p k * (locX p - mux) * (locY p - muy)) / (N * sx * sy) }

/-- `log_likelihood(params)` (`psf_mix_em.py:132-133`). -/
def logLikelihood (im : Pix nx ny → ℝ) (ps : Fin K → Comp) : ℝ :=
  ∑ p, im p * Real.log (mixImage ps p)

/-- The residual image of the greedy initialisation before component `i`: line 118 is
`residual_image -= - mvn_pdf_2d(...)` (`psf_mix_em.py:114-118`). -/
def greedyResidual (im : Pix nx ny → ℝ) : ℕ → Pix nx ny → ℝ
  | 0 => im
  | i + 1 => fun p => greedyResidual im i p - (- mvnPdf2d (easyInit (greedyResidual im i)) p)

/-- The starting parameters of component `i` with `method_init='greedy'`
(`psf_mix_em.py:116-118`). -/
def greedyInit (im : Pix nx ny → ℝ) (i : ℕ) : Comp := easyInit (greedyResidual im i)

end

end Forcepho.Em

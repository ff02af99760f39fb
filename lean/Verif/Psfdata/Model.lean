import Verif.Em.Props

/-!
# From a fitted PSF mixture to forcepho PSF data

Models `psf_prediction` (`forcepho/mixtures/psf_mix_hmc.py:35-53`) and the functions of
`demo/demo_psf/make_jwst_psf/make_psf.py` that turn the best-fit dictionary into the structured PSF
array: `rectify` (`:121-148`), `convert_psf_data` (`:151-210`), `scale_psf_data` (`:302-316`),
`blur_psf_data` (`:319-327`) and the layout written by `package_output` (`:213-251`).

The dictionary of parameter vectors is a list of gaussians (one entry per position of the vectors)
with the scalars `a` and `bg`.  Arithmetic is exact; the float32 storage is not modelled.
-/

set_option autoImplicit false

namespace Forcepho.Psfdata

open Classical

noncomputable section

/-- One gaussian of the dictionary: entries of the vectors `weight`, `x`, `y`, `sx`, `q`, `rho`
(`forcepho/mixtures/psf_mix_hmc.py:133-143`). -/
structure HG where
  weight : ℝ
  x : ℝ
  y : ℝ
  sx : ℝ
  q : ℝ
  rho : ℝ

/-- The best-fit dictionary: positive gaussians, total amplitude, background, and the gaussians of
the keys ending in `_m` (`psf_mix_hmc.py:116-166`). -/
structure Best where
  pos : List HG
  a : ℝ
  bg : ℝ
  neg : List HG

/-- One gaussian of `psf_prediction` (`psf_mix_hmc.py:45-50`). -/
def gaussAt (xp yp a : ℝ) (g : HG) : ℝ :=
  let sy := g.q * g.sx
  let norm := a * g.weight / (2 * Real.pi * g.sx * sy * Real.sqrt (1 - g.rho ^ 2))
  let dx := (xp - g.x) / g.sx
  let dy := (yp - g.y) / sy
  let exparg := -0.5 / (1 - g.rho ^ 2) * (dx ^ 2 + dy ^ 2 - 2 * g.rho * dx * dy)
  norm * Real.exp exparg

/-- `psf_prediction(xpix, ypix, **best)` at one pixel (`psf_mix_hmc.py:35-53`). -/
def prediction (xp yp a bg : ℝ) (gs : List HG) : ℝ :=
  (gs.map (gaussAt xp yp a)).sum + bg

/-- The model image and dictionary returned by `rectify` (`make_psf.py:121-148`): negative gaussians
are predicted with the default amplitude 1 and background 0, subtracted, and appended with negated
weights after the positive weights have absorbed the total amplitude. -/
def rectify (b : Best) : Best × (ℝ → ℝ → ℝ) :=
  let model := fun xp yp => prediction xp yp b.a b.bg b.pos
  if b.neg = [] then (b, model)
  else
    ({ pos := (b.pos.map fun g => { g with weight := g.weight * b.a })
                ++ b.neg.map fun g => { g with weight := g.weight * (-1) }
       a := 1
       bg := b.bg
       neg := [] },
     fun xp yp => model xp yp - prediction xp yp 1 0 b.neg)

/-- One row of the structured PSF array (`make_psf.py:188-191`). -/
structure Row where
  amp : ℝ
  xcr : ℝ
  ycr : ℝ
  cxx : ℝ
  cyy : ℝ
  cxy : ℝ
  sersicBin : ℕ

/-- `np.argsort(weight)[::-1]` applied to the gaussians: largest weight first
(`make_psf.py:194`). -/
def byWeight (gs : List HG) : List HG :=
  (gs.mergeSort fun g h => decide (g.weight ≤ h.weight)).reverse

/-- One converted gaussian (`make_psf.py:195-208`). -/
def convertOne (a cx cy os : ℝ) (r : ℕ) (g : HG) : Row :=
  let f := 1 / os
  let sx := g.sx * f
  let sy := sx * g.q
  { amp := g.weight * a
    xcr := (g.x - cx) * f
    ycr := (g.y - cy) * f
    cxx := sx ^ 2
    cyy := sy ^ 2
    cxy := sx * sy * g.rho
    sersicBin := r }

/-- `convert_psf_data(best, cx, cy, nloc, nradii, oversample)` (`make_psf.py:151-210`): nested
lists for the shape `(nloc, nradii, ngauss)`. -/
def convert (b : Best) (cx cy os : ℝ) (nloc nradii : ℕ) : List (List (List Row)) :=
  List.replicate nloc
    ((List.range nradii).map fun r => (byWeight b.pos).map (convertOne b.a cx cy os r))

/-- One gaussian of `scale_psf_data(pars, cx, cy, scale_factor)` (`make_psf.py:302-316`); `sy` is
kept instead of `q`. -/
structure Scaled where
  weight : ℝ
  x : ℝ
  y : ℝ
  sx : ℝ
  sy : ℝ
  rho : ℝ

/-- `scale_psf_data` (`make_psf.py:302-316`). -/
def scaleBack (cx cy f : ℝ) (p : Row) : Scaled :=
  let sx := Real.sqrt p.cxx
  let sy := Real.sqrt p.cyy
  { weight := p.amp
    x := p.xcr / f + cx
    y := p.ycr / f + cy
    sx := sx / f
    sy := sy / f
    rho := p.cxy / sx / sy }

/-- `blur_psf_data(pars, blur)` on one row (`make_psf.py:319-327`). -/
def blur (s : ℝ) (p : Row) : Row :=
  { p with cxx := p.cxx + s ^ 2, cyy := p.cyy + s ^ 2 }

/-- The `parameters` dataset: `pars.reshape(pars.shape[0], -1)` (`make_psf.py:225`). -/
def dataset (pars : List (List (List Row))) : List (List Row) := pars.map List.flatten

/-- The attribute `n_psf_per_source` for an array made by `convert` (`make_psf.py:226`). -/
def nPsfPerSource (nradii ngauss : ℕ) : ℕ := nradii * ngauss

end

end Forcepho.Psfdata

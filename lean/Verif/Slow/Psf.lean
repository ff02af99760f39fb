import Verif.Slow.Deriv

/-! # PSFs of the pure-Python code (forcepho/slow/psf.py)

Over the reals. Not modelled: reading files. -/

set_option autoImplicit false

namespace Forcepho.Psf

open Forcepho.Kernel (M22)
open Forcepho.Slow (PComp)

/-- `PointSpreadFunction()` (psf.py:25-30): one round gaussian of variance one. -/
def unitPsf : List PComp := [⟨1, (0, 0), ⟨1, 0, 0, 1⟩⟩]

/-- `get_psf(fwhm=...)` without a file (psf.py:112-113): `covariances *= fwhm / 2.355`. -/
noncomputable def getPsf (fwhm : ℝ) : List PComp :=
  unitPsf.map fun p => { p with cov := M22.smul (fwhm / 2.355) p.cov }

/-- Six fitted numbers of one gaussian of an old-style PSF: amplitude, means, standard deviations and
correlation along the first and second axis of the PSF image (psf.py:173-174). -/
structure Fitted where
  amp : ℝ
  mu1 : ℝ
  mu2 : ℝ
  s1 : ℝ
  s2 : ℝ
  rho : ℝ

/-- `params_to_gauss` and `make_psf` (psf.py:118-168) for one gaussian; the axes are exchanged. -/
noncomputable def makePsf (oversample start center : ℝ) (f : Fitted) : PComp :=
  let mux := (f.mu2 + start - center) / oversample
  let muy := (f.mu1 + start - center) / oversample
  let sy := f.s1 / oversample
  let sx := f.s2 / oversample
  let vxy := f.rho * sx * sy
  ⟨f.amp, (mux, muy), ⟨sx ^ 2, vxy, vxy, sy ^ 2⟩⟩

/-- `mvn_pdf` (psf.py:173-179), the fitted function. -/
noncomputable def mvnPdf (f : Fitted) (pos1 pos2 : ℝ) : ℝ :=
  let A := f.amp / (2 * Real.pi * f.s1 * f.s2 * Real.sqrt (1 - f.rho ^ 2))
  let d1 := (pos1 - f.mu1) / f.s1
  let d2 := (pos2 - f.mu2) / f.s2
  let e := -0.5 / (1 - f.rho ^ 2) * (d1 ^ 2 + d2 ^ 2 - 2 * f.rho * d1 * d2)
  A * Real.exp e

/-- `as_tuplelist` (psf.py:47-63): amplitude, x, y, Cxx, Cyy, Cxy. -/
def asTuple (p : PComp) : ℝ × ℝ × ℝ × ℝ × ℝ × ℝ :=
  (p.amp, p.mean.1, p.mean.2, p.cov.v11, p.cov.v22, p.cov.v12)

/-- One row of the structured array that `make_from_parameters` reads (psf.py:34-45). -/
structure Row where
  amp : ℝ
  xcen : ℝ
  ycen : ℝ
  Cxx : ℝ
  Cyy : ℝ
  Cxy : ℝ

/-- `make_from_parameters` for one row (psf.py:34-45). -/
def fromRow (r : Row) : PComp := ⟨r.amp, (r.xcen, r.ycen), ⟨r.Cxx, r.Cxy, r.Cxy, r.Cyy⟩⟩

/-! ## Specification -/

/-- The density of a gaussian component at a position. -/
noncomputable def density (p : PComp) (x y : ℝ) : ℝ :=
  let dx := x - p.mean.1
  let dy := y - p.mean.2
  let det := p.cov.v11 * p.cov.v22 - p.cov.v12 * p.cov.v21
  p.amp / (2 * Real.pi * Real.sqrt det) *
    Real.exp (-(p.cov.v22 * dx ^ 2 - (p.cov.v12 + p.cov.v21) * dx * dy + p.cov.v11 * dy ^ 2) / (2 * det))

/-- The value of a PSF at a position. -/
noncomputable def psfAt (ps : List PComp) (x y : ℝ) : ℝ := (ps.map fun p => density p x y).sum

/-! ## C81 -/

lemma getPsf_at (w : ℝ) (hw : 0 < w) (x y : ℝ) :
    psfAt (getPsf w) x y = 1 / (2 * Real.pi * (w / 2.355)) *
      Real.exp (-(x ^ 2 + y ^ 2) / (2 * (w / 2.355))) := by
  have hpos : 0 < w / 2.355 := by positivity
  unfold psfAt getPsf unitPsf
  generalize w / 2.355 = v at hpos
  simp only [List.map_cons, List.map_nil, List.sum_cons, List.sum_nil, add_zero, density, M22.smul,
    mul_one, mul_zero, sub_zero]
  have h : Real.sqrt (v * v) = v := Real.sqrt_mul_self hpos.le
  rw [h]
  congr 2
  have : v ≠ 0 := hpos.ne'
  field_simp
  ring

/-- Where the PSF made for a full width at half maximum `w` really falls to half its peak: at the radius
whose square is `2 log 2 · w / 2.355`. -/
theorem C81_half (w : ℝ) (hw : 0 < w) (x y : ℝ) :
    psfAt (getPsf w) x y = psfAt (getPsf w) 0 0 / 2 ↔ x ^ 2 + y ^ 2 = 2 * Real.log 2 * (w / 2.355) := by
  rw [getPsf_at w hw, getPsf_at w hw]
  have hpos : 0 < w / 2.355 := by positivity
  generalize w / 2.355 = v at hpos
  have hA : 1 / (2 * Real.pi * v) ≠ 0 := by
    have := Real.pi_pos
    positivity
  generalize 1 / (2 * Real.pi * v) = A at hA
  have h0 : Real.exp (-((0 : ℝ) ^ 2 + 0 ^ 2) / (2 * v)) = 1 := by simp
  rw [h0]
  constructor
  · intro h
    have h1 : Real.exp (-(x ^ 2 + y ^ 2) / (2 * v)) = 2⁻¹ := by
      have : A * Real.exp (-(x ^ 2 + y ^ 2) / (2 * v)) = A * 2⁻¹ := by rw [h]; ring
      exact mul_left_cancel₀ hA this
    have h2 := congrArg Real.log h1
    rw [Real.log_exp, Real.log_inv] at h2
    have hv : v ≠ 0 := hpos.ne'
    field_simp at h2
    linarith
  · intro h
    have : -(x ^ 2 + y ^ 2) / (2 * v) = -Real.log 2 := by
      rw [h]
      have hv : v ≠ 0 := hpos.ne'
      field_simp
    rw [this, Real.exp_neg, Real.exp_log (by norm_num)]
    ring

/-- The PSF made for `w` falls to half its peak at half the width `w` for a single value of `w` only,
and its total amplitude is one. -/
theorem C81_width_partial (w : ℝ) (hw : 0 < w) :
    (psfAt (getPsf w) (w / 2) 0 = psfAt (getPsf w) 0 0 / 2 ↔ w = 8 * Real.log 2 / 2.355) ∧
    ((getPsf w).map (·.amp)).sum = 1 := by
  constructor
  · rw [C81_half w hw]
    have hw' : w ≠ 0 := hw.ne'
    constructor
    · intro h
      have : w * w = w * (8 * Real.log 2 / 2.355) := by
        have h' : (w / 2) ^ 2 + 0 ^ 2 = w * w / 4 := by ring
        rw [h'] at h
        field_simp at h ⊢
        linarith
      exact mul_left_cancel₀ hw' this
    · intro h
      have e : w * w = w * (8 * Real.log 2 / 2.355) := by rw [← h]
      have h' : (w / 2) ^ 2 + 0 ^ 2 = w * w / 4 := by ring
      rw [h', e]
      ring
  · simp [getPsf, unitPsf]

/-- The PSF made for the default width of one pixel is at half a pixel still above 7/10 of its peak. -/
theorem C81_refuted : psfAt (getPsf 1) (1 / 2) 0 > 7 / 10 * psfAt (getPsf 1) 0 0 ∧
    psfAt (getPsf 1) 0 0 > 0 := by
  rw [getPsf_at 1 one_pos, getPsf_at 1 one_pos]
  have hA : 0 < 1 / (2 * Real.pi * ((1 : ℝ) / 2.355)) := by
    have := Real.pi_pos
    positivity
  generalize 1 / (2 * Real.pi * ((1 : ℝ) / 2.355)) = A at hA
  have h0 : Real.exp (-((0 : ℝ) ^ 2 + 0 ^ 2) / (2 * (1 / 2.355))) = 1 := by simp
  rw [h0]
  refine ⟨?_, by linarith⟩
  have h1 : (7 : ℝ) / 10 < Real.exp (-((1 / 2 : ℝ) ^ 2 + 0 ^ 2) / (2 * (1 / 2.355))) := by
    have := Real.add_one_le_exp (-((1 / 2 : ℝ) ^ 2 + 0 ^ 2) / (2 * (1 / 2.355)))
    refine lt_of_lt_of_le ?_ this
    norm_num
  nlinarith

/-! ## C85: old-style PSFs -/

/-- The PSF made of the fitted numbers is the fitted function, in detector pixels and with the axes exchanged:
at an offset `(x, y)` from the source it is `oversample²` times the fitted function at the corresponding place
of the PSF image. -/
theorem C85_density (o st c : ℝ) (ho : 0 < o) (f : Fitted) (h1 : 0 < f.s1) (h2 : 0 < f.s2)
    (hr : f.rho ^ 2 < 1) (x y : ℝ) :
    density (makePsf o st c f) x y = o ^ 2 * mvnPdf f (c - st + o * y) (c - st + o * x) := by
  obtain ⟨amp, mu1, mu2, s1, s2, rho⟩ := f
  simp only at h1 h2 hr
  have hR : 0 < 1 - rho ^ 2 := by linarith
  simp only [density, makePsf, mvnPdf]
  have hdet : (s2 / o) ^ 2 * (s1 / o) ^ 2 - rho * (s2 / o) * (s1 / o) * (rho * (s2 / o) * (s1 / o)) =
      (s1 / o * (s2 / o)) ^ 2 * (1 - rho ^ 2) := by ring
  have hsq : Real.sqrt ((s1 / o * (s2 / o)) ^ 2 * (1 - rho ^ 2)) =
      s1 / o * (s2 / o) * Real.sqrt (1 - rho ^ 2) := by
    rw [Real.sqrt_mul (by positivity), Real.sqrt_sq (by positivity)]
  rw [hdet, hsq]
  have hs : Real.sqrt (1 - rho ^ 2) ≠ 0 := (Real.sqrt_pos.mpr hR).ne'
  have e1 : amp / (2 * Real.pi * (s1 / o * (s2 / o) * Real.sqrt (1 - rho ^ 2))) =
      o ^ 2 * (amp / (2 * Real.pi * s1 * s2 * Real.sqrt (1 - rho ^ 2))) := by
    have := Real.pi_ne_zero
    generalize Real.sqrt (1 - rho ^ 2) = q at hs
    field_simp
  rw [e1, mul_assoc]
  congr 3
  generalize hRR : 1 - rho ^ 2 = R at hR
  have hR' : R ≠ 0 := hR.ne'
  field_simp
  ring

/-- The covariance matrix of the PSF is symmetric and positive definite. -/
theorem C85_posdef (o st c : ℝ) (ho : 0 < o) (f : Fitted) (h1 : 0 < f.s1) (h2 : 0 < f.s2)
    (hr : f.rho ^ 2 < 1) :
    (makePsf o st c f).cov.v12 = (makePsf o st c f).cov.v21 ∧ 0 < (makePsf o st c f).cov.v11 ∧
    0 < (makePsf o st c f).cov.v11 * (makePsf o st c f).cov.v22 -
      (makePsf o st c f).cov.v12 * (makePsf o st c f).cov.v21 := by
  obtain ⟨amp, mu1, mu2, s1, s2, rho⟩ := f
  simp only at h1 h2 hr
  simp only [makePsf]
  refine ⟨trivial, by positivity, ?_⟩
  have hdet : (s2 / o) ^ 2 * (s1 / o) ^ 2 - rho * (s2 / o) * (s1 / o) * (rho * (s2 / o) * (s1 / o)) =
      (s1 / o * (s2 / o)) ^ 2 * (1 - rho ^ 2) := by ring
  rw [hdet]
  have hR : 0 < 1 - rho ^ 2 := by linarith
  positivity

example : (0 : ℝ) < 8 ∧ (1 / 2 : ℝ) ^ 2 < 1 := by norm_num

/-- Listing a PSF for the kernel loses nothing: two components read from tables or converted from old-style
fits with the same listed numbers are the same, and the density can be computed from the listed numbers. -/
theorem C85_tuples (p q : PComp)
    (hp : (∃ r, p = fromRow r) ∨ ∃ o st c f, p = makePsf o st c f)
    (hq : (∃ r, q = fromRow r) ∨ ∃ o st c f, q = makePsf o st c f) :
    (asTuple p = asTuple q → p = q) ∧
    (∀ a x0 y0 cxx cyy cxy, asTuple p = (a, x0, y0, cxx, cyy, cxy) → ∀ x y, density p x y =
      a / (2 * Real.pi * Real.sqrt (cxx * cyy - cxy ^ 2)) *
        Real.exp (-(cyy * (x - x0) ^ 2 - 2 * cxy * (x - x0) * (y - y0) + cxx * (y - y0) ^ 2) /
          (2 * (cxx * cyy - cxy ^ 2)))) ∧
    (∀ r, p = fromRow r → asTuple p = (r.amp, r.xcen, r.ycen, r.Cxx, r.Cyy, r.Cxy)) := by
  have sp : p.cov.v12 = p.cov.v21 := by
    rcases hp with ⟨r, rfl⟩ | ⟨o, st, c, f, rfl⟩ <;> rfl
  have sq : q.cov.v12 = q.cov.v21 := by
    rcases hq with ⟨r, rfl⟩ | ⟨o, st, c, f, rfl⟩ <;> rfl
  refine ⟨?_, ?_, ?_⟩
  · intro h
    obtain ⟨pa, ⟨px, py⟩, ⟨p11, p12, p21, p22⟩⟩ := p
    obtain ⟨qa, ⟨qx, qy⟩, ⟨q11, q12, q21, q22⟩⟩ := q
    simp only [asTuple, Prod.mk.injEq] at h sp sq
    obtain ⟨rfl, rfl, rfl, rfl, rfl, rfl⟩ := h
    rw [← sp, ← sq]
  · intro a x0 y0 cxx cyy cxy h x y
    simp only [asTuple, Prod.mk.injEq] at h
    obtain ⟨rfl, rfl, rfl, rfl, rfl, rfl⟩ := h
    simp only [density, ← sp]
    congr 3 <;> ring_nf
  · rintro r rfl
    rfl

example : asTuple (fromRow ⟨1, 2, 3, 4, 5, 6⟩) = (1, 2, 3, 4, 5, 6) := rfl

end Forcepho.Psf

import Verif.Kernel.Deriv
import Verif.Patch.Meta
import Mathlib.LinearAlgebra.Matrix.PosDef
import Mathlib.Algebra.Order.Star.Real
import Mathlib.LinearAlgebra.Matrix.Notation
import Mathlib.LinearAlgebra.Matrix.NonsingularInverse
import Mathlib.Analysis.SpecialFunctions.Gaussian.GaussianIntegral
import Mathlib.MeasureTheory.Group.Integral

/-! # C43, C49, C50, C51: the kernel against its specification -/

set_option autoImplicit false
set_option linter.unusedSectionVars false

namespace Forcepho.Kernel

open Matrix

/-! ## The 2 × 2 matrix routines compute matrix algebra -/

/-- The matrix a `matrix22` stands for. -/
def M22.toMatrix (a : M22) : Matrix (Fin 2) (Fin 2) ℝ := !![a.v11, a.v12; a.v21, a.v22]

lemma M22.toMatrix_injective : Function.Injective M22.toMatrix := by
  intro a b h
  have h00 := congrFun (congrFun h 0) 0
  have h01 := congrFun (congrFun h 0) 1
  have h10 := congrFun (congrFun h 1) 0
  have h11 := congrFun (congrFun h 1) 1
  simp [M22.toMatrix] at h00 h01 h10 h11
  exact M22.ext h00 h01 h10 h11

/-- **C49 (matrix algebra).** Every routine of the kernel's matrix class computes the matrix operation
its name promises; the two triple products need a symmetric middle factor. -/
theorem C49_matrix (a b : M22) (s x y : ℝ) :
    (a.mul b).toMatrix = a.toMatrix * b.toMatrix ∧
    (a.add b).toMatrix = a.toMatrix + b.toMatrix ∧
    (a.sub b).toMatrix = a.toMatrix - b.toMatrix ∧
    (M22.smul s a).toMatrix = s • a.toMatrix ∧
    a.tr.toMatrix = a.toMatrixᵀ ∧
    a.det = a.toMatrix.det ∧
    a.trace = a.toMatrix.trace ∧
    a.inv.toMatrix = a.toMatrix⁻¹ ∧
    (M22.ABA a b).toMatrix = a.toMatrix * b.toMatrix * a.toMatrix ∧
    (M22.AAt a).toMatrix = a.toMatrix * a.toMatrixᵀ ∧
    (M22.AtA a).toMatrix = a.toMatrixᵀ * a.toMatrix ∧
    (M22.symABt a b).toMatrix = a.toMatrix * b.toMatrixᵀ + b.toMatrix * a.toMatrixᵀ ∧
    (a.v12 = a.v21 → (M22.BtAB a b).toMatrix = b.toMatrixᵀ * a.toMatrix * b.toMatrix) ∧
    (a.v12 = a.v21 → (M22.BABt a b).toMatrix = b.toMatrix * a.toMatrix * b.toMatrixᵀ) ∧
    M22.vtAv a x y = ![x, y] ⬝ᵥ (a.toMatrix *ᵥ ![x, y]) ∧
    ![(a.mulVec (x, y)).1, (a.mulVec (x, y)).2] = a.toMatrix *ᵥ ![x, y] := by
  refine ⟨?_, ?_, ?_, ?_, ?_, ?_, ?_, ?_, ?_, ?_, ?_, ?_, ?_, ?_, ?_, ?_⟩
  · ext i j
    fin_cases i <;> fin_cases j <;> simp [M22.toMatrix, M22.mul, Matrix.mul_apply, Fin.sum_univ_two]
  · ext i j
    fin_cases i <;> fin_cases j <;> simp [M22.toMatrix, M22.add]
  · ext i j
    fin_cases i <;> fin_cases j <;> simp [M22.toMatrix, M22.sub]
  · ext i j
    fin_cases i <;> fin_cases j <;> simp [M22.toMatrix, M22.smul]
  · ext i j
    fin_cases i <;> fin_cases j <;> simp [M22.toMatrix, M22.tr]
  · simp [M22.toMatrix, M22.det, Matrix.det_fin_two]
  · simp [M22.toMatrix, M22.trace, Matrix.trace_fin_two]
  · rw [Matrix.inv_def, Matrix.adjugate_fin_two]
    ext i j
    fin_cases i <;> fin_cases j <;>
      simp [M22.toMatrix, M22.inv, M22.det, Matrix.det_fin_two, Ring.inverse_eq_inv', mul_comm]
  · ext i j
    fin_cases i <;> fin_cases j <;>
      simp [M22.toMatrix, M22.ABA, Matrix.mul_apply, Fin.sum_univ_two] <;> ring
  · ext i j
    fin_cases i <;> fin_cases j <;>
      simp [M22.toMatrix, M22.AAt, Matrix.mul_apply, Fin.sum_univ_two] <;> ring
  · ext i j
    fin_cases i <;> fin_cases j <;>
      simp [M22.toMatrix, M22.AtA, Matrix.mul_apply, Fin.sum_univ_two] <;> ring
  · ext i j
    fin_cases i <;> fin_cases j <;>
      simp only [M22.toMatrix, M22.symABt, Matrix.add_apply, Matrix.mul_apply, Fin.sum_univ_two,
        Matrix.transpose_apply] <;> simp <;> ring
  · intro h
    ext i j
    fin_cases i <;> fin_cases j <;>
      simp [M22.toMatrix, M22.BtAB, M22.mul, Matrix.mul_apply, Fin.sum_univ_two, h] <;> ring
  · intro h
    ext i j
    fin_cases i <;> fin_cases j <;>
      simp [M22.toMatrix, M22.BABt, M22.mul, Matrix.mul_apply, Fin.sum_univ_two, h] <;> ring
  · simp [M22.toMatrix, M22.vtAv, dotProduct, Fin.sum_univ_two, Matrix.mulVec]
    ring
  · ext i
    fin_cases i <;> simp [M22.toMatrix, M22.mulVec, Matrix.mulVec, dotProduct, Fin.sum_univ_two]

/-! ## C49: image gaussians -/

/-- The transformation of the unit circle to the image: stretch by the axis ratio, rotate by the
position angle, distort by the scale matrix. -/
noncomputable def shape (D : Matrix (Fin 2) (Fin 2) ℝ) (q pa : ℝ) : Matrix (Fin 2) (Fin 2) ℝ :=
  D * !![Real.cos pa, -Real.sin pa; Real.sin pa, Real.cos pa] * !![1 / q, 0; 0, q]

/-- The covariance of a PSF gaussian. -/
def psfCov (p : Psf) : Matrix (Fin 2) (Fin 2) ℝ := !![p.cxx, p.cxy; p.cxy, p.cyy]

/-- The covariance a component should have in the image. -/
noncomputable def specCov (e : Exposure) (g : Nat) (s : Source) (p : Psf) :
    Matrix (Fin 2) (Fin 2) ℝ :=
  e.rad2 p.bin • (shape (e.astrom g).D.toMatrix s.q s.pa *
    (shape (e.astrom g).D.toMatrix s.q s.pa)ᵀ) + psfCov p

/-- The precision matrix stored in an image gaussian. -/
def precision (g : ImGauss) : Matrix (Fin 2) (Fin 2) ℝ := !![g.fxx, g.fxy; g.fxy, g.fyy]

lemma imCov_toMatrix (band : Nat) (e : Exposure) (g : Nat) (s : Source) (p : Psf) :
    (imCov band e g s p).toMatrix = specCov e g s p := by
  have hT : (((e.astrom g).D.mul (M22.rot s.pa)).mul (M22.scale s.q)).toMatrix =
      shape (e.astrom g).D.toMatrix s.q s.pa := by
    rw [(C49_matrix _ _ 0 0 0).1, (C49_matrix _ _ 0 0 0).1]
    rfl
  simp only [imCov, covariance, specCov]
  rw [(C49_matrix _ _ 0 0 0).2.1, (C49_matrix _ ⟨0, 0, 0, 0⟩ _ 0 0).2.2.2.1,
    (C49_matrix _ ⟨0, 0, 0, 0⟩ 0 0 0).2.2.2.2.2.2.2.2.2.1]
  simp only [pixGauss, hT]
  rfl

lemma shape_det (D : Matrix (Fin 2) (Fin 2) ℝ) (q pa : ℝ) (hq : q ≠ 0) :
    (shape D q pa).det = D.det := by
  unfold shape
  rw [Matrix.det_mul, Matrix.det_mul]
  have h1 : (!![Real.cos pa, -Real.sin pa; Real.sin pa, Real.cos pa] :
      Matrix (Fin 2) (Fin 2) ℝ).det = 1 := by
    rw [Matrix.det_fin_two]
    simp
    have := Real.sin_sq_add_cos_sq pa
    nlinarith
  have h2 : (!![1 / q, 0; 0, q] : Matrix (Fin 2) (Fin 2) ℝ).det = 1 := by
    rw [Matrix.det_fin_two]
    simp [hq]
  rw [h1, h2]
  ring

lemma shape_posDef (D : Matrix (Fin 2) (Fin 2) ℝ) (q pa : ℝ) (hq : q ≠ 0) (hD : D.det ≠ 0) :
    (shape D q pa * (shape D q pa)ᵀ).PosDef := by
  have h := Matrix.PosDef.mul_conjTranspose_self (shape D q pa)
    (by
      apply Matrix.vecMul_injective_of_isUnit
      rw [Matrix.isUnit_iff_isUnit_det, shape_det D q pa hq]
      exact isUnit_iff_ne_zero.mpr hD)
  rwa [Matrix.conjTranspose_eq_transpose_of_trivial] at h

/-- **C49 (covariance).** For a nonzero axis ratio and an invertible scale matrix the image
covariance of every component is `r² T Tᵀ + PSF`. It is positive definite if the profile
variance is positive and the PSF covariance positive semidefinite, and for a point source
(zero profile variance) if the PSF covariance is positive definite. -/
theorem C49_positive_definite (band : Nat) (e : Exposure) (g : Nat) (s : Source) (p : Psf)
    (hq : s.q ≠ 0) (hD : (e.astrom g).D.toMatrix.det ≠ 0)
    (h : (0 < e.rad2 p.bin ∧ (psfCov p).PosSemidef) ∨ (0 ≤ e.rad2 p.bin ∧ (psfCov p).PosDef)) :
    (imCov band e g s p).toMatrix = specCov e g s p ∧ (specCov e g s p).PosDef ∧
      0 < (imCov band e g s p).det := by
  have hpd : (specCov e g s p).PosDef := by
    have hS := shape_posDef (e.astrom g).D.toMatrix s.q s.pa hq hD
    rcases h with ⟨hr, hp⟩ | ⟨hr, hp⟩
    · exact (hS.smul hr).add_posSemidef hp
    · exact Matrix.PosDef.posSemidef_add (hS.posSemidef.smul hr) hp
  refine ⟨imCov_toMatrix band e g s p, hpd, ?_⟩
  rw [(C49_matrix _ ⟨0, 0, 0, 0⟩ 0 0 0).2.2.2.2.2.1, imCov_toMatrix]
  have h0 := hpd.dotProduct_mulVec_pos (x := ![1, 0]) (by
    intro h
    have := congrFun h 0
    simp at this)
  have hsym := hpd.isHermitian.apply 0 1
  have h1 := hpd.dotProduct_mulVec_pos
    (x := ![-specCov e g s p 0 1, specCov e g s p 0 0]) (by
    intro h
    have h2 := congrFun h 1
    simp only [Matrix.mulVec, dotProduct, Fin.sum_univ_two] at h0
    simp at h2 h0
    linarith)
  simp only [Matrix.mulVec, dotProduct, Fin.sum_univ_two] at h0 h1
  simp at h0 h1 hsym
  rw [hsym] at h1
  rw [Matrix.det_fin_two, hsym]
  have : specCov e g s p 0 0 * (specCov e g s p 0 0 * specCov e g s p 1 1 -
      specCov e g s p 0 1 * specCov e g s p 0 1) > 0 := by nlinarith
  exact (mul_pos_iff_of_pos_left h0).mp this

/-- **C49 (precision and amplitude).** The stored precision is the inverse of the covariance, the
centre is the projected position displaced by the PSF offset, and the amplitude is that of a
gaussian with total counts `calibration × flux × mixture amplitude × PSF amplitude`. -/
theorem C49_gaussian (band : Nat) (e : Exposure) (g : Nat) (s : Source) (p : Psf)
    (hdet : 0 < (specCov e g s p).det) :
    precision (imGauss band e g s p) = (specCov e g s p)⁻¹ ∧
    (imGauss band e g s p).amp =
      e.G * s.fluxes band * s.amps p.bin * p.amp /
        (2 * Real.pi * Real.sqrt (specCov e g s p).det) ∧
    ![(imGauss band e g s p).xcen, (imGauss band e g s p).ycen] =
      (e.astrom g).CW.toMatrix *ᵥ ![s.ra - (e.astrom g).crval.1, s.dec - (e.astrom g).crval.2] +
        ![(e.astrom g).crpix.1 + p.xcen, (e.astrom g).crpix.2 + p.ycen] := by
  have hcov := imCov_toMatrix band e g s p
  have hinv := (C49_matrix (imCov band e g s p) ⟨0, 0, 0, 0⟩ 0 0 0).2.2.2.2.2.2.2.1
  have hd := (C49_matrix (imCov band e g s p) ⟨0, 0, 0, 0⟩ 0 0 0).2.2.2.2.2.1
  have hdi := (C49_matrix (imCov band e g s p).inv ⟨0, 0, 0, 0⟩ 0 0 0).2.2.2.2.2.1
  have hsym : (imCov band e g s p).v12 = (imCov band e g s p).v21 := by
    simp [imCov, covariance, M22.add, M22.smul, M22.AAt]
  rw [hcov] at hinv hd
  refine ⟨?_, ?_, ?_⟩
  · rw [← hinv]
    have : (imCov band e g s p).inv.v12 = (imCov band e g s p).inv.v21 := by
      simp [M22.inv, hsym]
    ext i j
    fin_cases i <;> fin_cases j <;>
      simp [precision, M22.toMatrix, imGauss, getGaussianAndJacobian, ← this, imCov] <;>
      (rw [imCov] at this; exact this.symm)
  · have h1 : (imCov band e g s p).inv.det = 1 / (specCov e g s p).det := by
      rw [hdi, hinv, Matrix.det_nonsing_inv, Ring.inverse_eq_inv', one_div]
    have h2 : (imGauss band e g s p).amp = e.G * p.amp *
        Real.sqrt (imCov band e g s p).inv.det * (1 / (2 * Real.pi)) * s.fluxes band *
        s.amps p.bin := rfl
    rw [h2, h1, Real.sqrt_div' _ hdet.le, Real.sqrt_one]
    have := Real.sqrt_pos.mpr hdet
    have := Real.pi_pos
    field_simp
  · have := (C49_matrix (e.astrom g).CW ⟨0, 0, 0, 0⟩ 0 (s.ra - (e.astrom g).crval.1)
      (s.dec - (e.astrom g).crval.2)).2.2.2.2.2.2.2.2.2.2.2.2.2.2.2
    rw [← this]
    ext i
    fin_cases i <;> simp [imGauss, getGaussianAndJacobian, pixGauss] <;> ring

lemma gauss1 (b c : ℝ) :
    ∫ x : ℝ, Real.exp (-(b / 2) * (x - c) ^ 2) = Real.sqrt (2 * Real.pi / b) := by
  rw [MeasureTheory.integral_sub_right_eq_self (fun x : ℝ => Real.exp (-(b / 2) * x ^ 2)) c,
    integral_gaussian]
  congr 1
  by_cases hb : b = 0
  · simp [hb]
  · field_simp

/-- The integral of a positive definite gaussian over the plane. -/
lemma gauss2 (a b c x₀ y₀ : ℝ) (ha : 0 < a) (hd : 0 < a * c - b * b) :
    ∫ y : ℝ, ∫ x : ℝ, Real.exp (-(1 / 2) * ((x - x₀) * (a * (x - x₀) + b * (y - y₀)) +
      (y - y₀) * (c * (y - y₀) + b * (x - x₀)))) =
      2 * Real.pi / Real.sqrt (a * c - b * b) := by
  have hin : ∀ y : ℝ, ∫ x : ℝ, Real.exp (-(1 / 2) * ((x - x₀) * (a * (x - x₀) + b * (y - y₀)) +
      (y - y₀) * (c * (y - y₀) + b * (x - x₀)))) =
      Real.sqrt (2 * Real.pi / a) *
        Real.exp (-(((a * c - b * b) / a) / 2) * (y - y₀) ^ 2) := by
    intro y
    have : ∀ x : ℝ, Real.exp (-(1 / 2) * ((x - x₀) * (a * (x - x₀) + b * (y - y₀)) +
        (y - y₀) * (c * (y - y₀) + b * (x - x₀)))) =
        Real.exp (-(a / 2) * (x - (x₀ - b / a * (y - y₀))) ^ 2) *
          Real.exp (-(((a * c - b * b) / a) / 2) * (y - y₀) ^ 2) := by
      intro x
      rw [← Real.exp_add]
      congr 1
      field_simp
      ring
    simp_rw [this]
    rw [MeasureTheory.integral_mul_const, gauss1]
  simp_rw [hin]
  rw [MeasureTheory.integral_const_mul, gauss1]
  have hpi := Real.pi_pos
  rw [← Real.sqrt_mul (by positivity)]
  have h2 : 2 * Real.pi / a * (2 * Real.pi / ((a * c - b * b) / a)) =
      (2 * Real.pi) ^ 2 / (a * c - b * b) := by
    field_simp
  rw [h2, Real.sqrt_div' _ hd.le, Real.sqrt_sq (by positivity)]

/-- **C49 (normalisation).** The counts of an image gaussian integrate over the image plane to
`calibration × flux × mixture amplitude × PSF amplitude`. -/
theorem C49_total_flux (band : Nat) (e : Exposure) (g : Nat) (s : Source) (p : Psf)
    (hq : s.q ≠ 0) (hD : (e.astrom g).D.toMatrix.det ≠ 0)
    (h : (0 < e.rad2 p.bin ∧ (psfCov p).PosSemidef) ∨ (0 ≤ e.rad2 p.bin ∧ (psfCov p).PosDef)) :
    ∫ y : ℝ, ∫ x : ℝ, (imGauss band e g s p).amp *
      Real.exp (-(1 / 2) * expArg (imGauss band e g s p) x y) =
      e.G * s.fluxes band * s.amps p.bin * p.amp := by
  obtain ⟨hc, hpd, hdet⟩ := C49_positive_definite band e g s p hq hD h
  have hdm := (C49_matrix (imCov band e g s p) ⟨0, 0, 0, 0⟩ 0 0 0).2.2.2.2.2.1
  rw [hc] at hdm
  have hdet' : 0 < (specCov e g s p).det := hdm ▸ hdet
  obtain ⟨hp, ha, -⟩ := C49_gaussian band e g s p hdet'
  have hinv : (precision (imGauss band e g s p)).PosDef := hp ▸ hpd.inv
  have ha0 : 0 < (imGauss band e g s p).fxx := by
    have := hinv.diag_pos (i := 0)
    simpa [precision] using this
  have hdF : (imGauss band e g s p).fxx * (imGauss band e g s p).fyy -
      (imGauss band e g s p).fxy * (imGauss band e g s p).fxy = 1 / (specCov e g s p).det := by
    have h1 := congrArg Matrix.det hp
    rw [Matrix.det_nonsing_inv, Ring.inverse_eq_inv', ← one_div] at h1
    rw [← h1, Matrix.det_fin_two]
    simp [precision]
  have hdF0 : 0 < (imGauss band e g s p).fxx * (imGauss band e g s p).fyy -
      (imGauss band e g s p).fxy * (imGauss band e g s p).fxy := by
    rw [hdF]
    positivity
  simp_rw [MeasureTheory.integral_const_mul]
  have := gauss2 (imGauss band e g s p).fxx (imGauss band e g s p).fxy (imGauss band e g s p).fyy
    (imGauss band e g s p).xcen (imGauss band e g s p).ycen ha0 hdF0
  unfold expArg
  rw [this, hdF, Real.sqrt_div' _ hdet'.le, Real.sqrt_one, ha]
  have := Real.sqrt_pos.mpr hdet'
  have := Real.pi_pos
  field_simp

/-! ## The reported chi-square -/

/-- The counts a component should contribute at a position: a gaussian of covariance `C`, cut at six
standard deviations, with the second-order correction for the pixel average. -/
noncomputable def specCounts (total : ℝ) (C : Matrix (Fin 2) (Fin 2) ℝ) (δ : Fin 2 → ℝ) : ℝ :=
  if 6 ^ 2 < δ ⬝ᵥ (C⁻¹ *ᵥ δ) then 0
  else total / (2 * Real.pi * Real.sqrt C.det) * Real.exp (-(δ ⬝ᵥ (C⁻¹ *ᵥ δ)) / 2) *
    (1 + ((C⁻¹ *ᵥ δ) ⬝ᵥ (C⁻¹ *ᵥ δ) - C⁻¹.trace) / 24)

/-- The model of a pixel: the sum over sources and PSF gaussians. -/
noncomputable def specModel (band n : Nat) (e : Exposure) (sources : Nat → Source) (x y : ℝ) : ℝ :=
  ((List.range n).map fun g => (e.psfs.map fun p =>
    specCounts (e.G * (sources g).fluxes band * (sources g).amps p.bin * p.amp)
      (specCov e g (sources g) p)
      (![x, y] - ((e.astrom g).CW.toMatrix *ᵥ ![(sources g).ra - (e.astrom g).crval.1,
          (sources g).dec - (e.astrom g).crval.2] +
        ![(e.astrom g).crpix.1 + p.xcen, (e.astrom g).crpix.2 + p.ycen]))).sum).sum

lemma contrib_spec (band : Nat) (e : Exposure) (g : Nat) (s : Source) (p : Psf)
    (hdet : 0 < (specCov e g s p).det) (x y : ℝ) :
    contrib (imGauss band e g s p) x y =
      specCounts (e.G * s.fluxes band * s.amps p.bin * p.amp) (specCov e g s p)
        (![x, y] - ((e.astrom g).CW.toMatrix *ᵥ ![s.ra - (e.astrom g).crval.1,
            s.dec - (e.astrom g).crval.2] +
          ![(e.astrom g).crpix.1 + p.xcen, (e.astrom g).crpix.2 + p.ycen])) := by
  obtain ⟨hp, ha, hx⟩ := C49_gaussian band e g s p hdet
  rw [← hx]
  unfold specCounts
  rw [← hp, ← ha]
  have hq : (![x, y] - ![(imGauss band e g s p).xcen, (imGauss band e g s p).ycen]) ⬝ᵥ
      (precision (imGauss band e g s p) *ᵥ
        (![x, y] - ![(imGauss band e g s p).xcen, (imGauss band e g s p).ycen])) =
      expArg (imGauss band e g s p) x y := by
    simp only [precision, expArg, dotProduct, Matrix.mulVec, Fin.sum_univ_two, Pi.sub_apply]
    simp only [Matrix.cons_val_zero, Matrix.cons_val_one, Matrix.of_apply]
    ring
  have hv : (precision (imGauss band e g s p) *ᵥ
        (![x, y] - ![(imGauss band e g s p).xcen, (imGauss band e g s p).ycen])) ⬝ᵥ
      (precision (imGauss band e g s p) *ᵥ
        (![x, y] - ![(imGauss band e g s p).xcen, (imGauss band e g s p).ycen])) =
      ((imGauss band e g s p).fxx * (x - (imGauss band e g s p).xcen) +
        (imGauss band e g s p).fxy * (y - (imGauss band e g s p).ycen)) ^ 2 +
      ((imGauss band e g s p).fyy * (y - (imGauss band e g s p).ycen) +
        (imGauss band e g s p).fxy * (x - (imGauss band e g s p).xcen)) ^ 2 := by
    simp [precision, dotProduct, Matrix.mulVec, Fin.sum_univ_two]
    ring
  have ht : (precision (imGauss band e g s p)).trace =
      (imGauss band e g s p).fxx + (imGauss band e g s p).fyy := by
    simp [precision, Matrix.trace_fin_two]
  rw [hq, hv, ht]
  unfold contrib hCorr maxExpArg
  have h36 : (36 : ℝ) = 6 ^ 2 := by norm_num
  rw [h36]
  by_cases hgt : expArg (imGauss band e g s p) x y > 6 ^ 2
  · rw [if_pos hgt, if_pos hgt]
  · rw [if_neg hgt, if_neg hgt]
    congr 1
    · congr 2
      ring
    · ring

/-- **C50 (chi-square).** The reported chi-square is the weighted sum of squared residuals against the
gaussian mixture model, minus the same sum for an empty model; the residual image is data minus model. -/
theorem C50_chi2 (band n : Nat) (es : List Exposure) (sources : Nat → Source)
    (hdet : ∀ e ∈ es, ∀ g < n, ∀ p ∈ e.psfs, 0 < (specCov e g (sources g) p).det) :
    (evaluate band n es sources).chi2 = (es.map fun e => (e.pixels.map fun px =>
      px.ierr ^ 2 * (px.data - specModel band n e sources px.x px.y) ^ 2 -
        px.ierr ^ 2 * px.data ^ 2).sum).sum ∧
    ∀ e ∈ es, residualImage band n e sources =
      e.pixels.map fun px => px.data - specModel band n e sources px.x px.y := by
  have hm : ∀ e ∈ es, ∀ x y, ((createImageGaussians band e n sources).map
      fun g => contrib g x y).sum = specModel band n e sources x y := by
    intro e he x y
    rw [sum_contrib]
    unfold specModel
    congr 1
    apply List.map_congr_left
    intro g hg
    congr 1
    apply List.map_congr_left
    intro p hp
    exact contrib_spec band e g (sources g) p (hdet e he g (List.mem_range.mp hg) p hp) x y
  constructor
  · rw [evaluate_chi2]
    congr 1
    apply List.map_congr_left
    intro e he
    congr 1
    apply List.map_congr_left
    intro px _
    rw [pixelChi2_eq, hm e he]
    ring
  · intro e he
    unfold residualImage
    apply List.map_congr_left
    intro px _
    rw [computeResidual_eq, hm e he]

/-! ## C51, C43: pixels without weight -/

lemma pixelStep_zero (n : Nat) (gs : List ImGauss) (nGal : Nat) (acc : Acc) (p : Pixel)
    (h : p.ierr = 0) : pixelStep n gs nGal acc p = acc := by
  have h1 : acc.chi2 + pixelChi2 gs p = acc.chi2 := by simp [pixelChi2, h]
  have h2 : (fun gal prm => if gal < n then acc.grad gal prm +
      computeDerivative p.x p.y (weighted gs p) ((gs.drop (gal * nGal)).take nGal) prm
      else acc.grad gal prm) = acc.grad := by
    funext gal prm
    have : weighted gs p = 0 := by simp [weighted, h]
    rw [computeDerivative_eq, this]
    simp
  unfold pixelStep
  rw [h1, h2]

lemma foldl_pixelStep_filter (n : Nat) (gs : List ImGauss) (nGal : Nat) (ps : List Pixel)
    (acc : Acc) [DecidablePred fun p : Pixel => p.ierr ≠ 0] :
    ps.foldl (pixelStep n gs nGal) acc =
      (ps.filter fun p => p.ierr ≠ 0).foldl (pixelStep n gs nGal) acc := by
  induction ps generalizing acc with
  | nil => rfl
  | cons p ps ih =>
    by_cases h : p.ierr = 0
    · rw [List.foldl_cons, pixelStep_zero n gs nGal acc p h, ih, List.filter_cons_of_neg (by simp [h])]
    · rw [List.foldl_cons, ih, List.filter_cons_of_pos (by simp [h]), List.foldl_cons]

open Classical in
/-- The pixels of an exposure that carry weight. -/
noncomputable def weightedPixels (ps : List Pixel) : List Pixel := ps.filter fun p => p.ierr ≠ 0

/-- Two exposures differ only in pixels without weight. -/
structure SameWeighted (e e' : Exposure) : Prop where
  G : e.G = e'.G
  astrom : e.astrom = e'.astrom
  psfs : e.psfs = e'.psfs
  rad2 : e.rad2 = e'.rad2
  pixels : weightedPixels e.pixels = weightedPixels e'.pixels

lemma exposureStep_same (band n : Nat) (sources : Nat → Source) (acc : Acc) (e e' : Exposure)
    (h : SameWeighted e e') :
    exposureStep band n sources acc e = exposureStep band n sources acc e' := by
  obtain ⟨G, as, ps, r, px⟩ := e
  obtain ⟨G', as', ps', r', px'⟩ := e'
  obtain ⟨h1, h2, h3, h4, h5⟩ := h
  simp only at h1 h2 h3 h4 h5
  subst h1 h2 h3 h4
  classical
  simp only [exposureStep]
  rw [foldl_pixelStep_filter, foldl_pixelStep_filter n _ _ px']
  simp only [weightedPixels] at h5
  have h6 : (px.filter fun p => p.ierr ≠ 0) = px'.filter fun p => p.ierr ≠ 0 := by
    convert h5
  rw [h6]
  rfl

/-- **C51.** Two patches whose exposures differ only in pixels with zero inverse error, in values,
positions or number, have the same chi-square and the same gradients. -/
theorem C51_zero_weight (band n : Nat) (sources : Nat → Source) (es es' : List Exposure)
    (h : List.Forall₂ SameWeighted es es') :
    evaluate band n es sources = evaluate band n es' sources := by
  unfold evaluate
  generalize (Acc.mk 0 fun _ _ => 0) = acc
  induction h generalizing acc with
  | nil => rfl
  | cons h _ ih =>
    rw [List.foldl_cons, List.foldl_cons, exposureStep_same band n sources acc _ _ h, ih]

/-- **C51 (one pixel).** Overwriting the data of a pixel with zero inverse error changes neither
chi-square nor any gradient. -/
theorem C51_one_pixel (band n : Nat) (sources : Nat → Source) (pre post : List Exposure)
    (e : Exposure) (l r : List Pixel) (p : Pixel) (v : ℝ) (h0 : p.ierr = 0) :
    evaluate band n (pre ++ { e with pixels := l ++ { p with data := v } :: r } :: post) sources =
      evaluate band n (pre ++ { e with pixels := l ++ p :: r } :: post) sources := by
  apply C51_zero_weight
  have hrefl : ∀ es : List Exposure, List.Forall₂ SameWeighted es es := by
    intro es
    induction es with
    | nil => exact .nil
    | cons e es ih => exact .cons ⟨rfl, rfl, rfl, rfl, rfl⟩ ih
  refine List.rel_append (hrefl pre) (.cons ⟨rfl, rfl, rfl, rfl, ?_⟩ (hrefl post))
  simp [weightedPixels, h0]

/-- A pixel of a patch as the kernel sees it. -/
def ofPatch (p : Patch.Pixel ℝ) : Pixel := ⟨p.x, p.y, p.flux, p.ierr⟩

/-- **C43 (inertness).** The likelihood and all gradients of exposures padded by `FITSPatch` or by
`StaticPatch` equal those without padding. -/
theorem C43_inert (band n : Nat) (sources : Nat → Source) (warp : Nat) (hw : 0 < warp)
    (es : List (Exposure × List (Patch.Pixel ℝ))) :
    evaluate band n (es.map fun e =>
        { e.1 with pixels := (Patch.fitsPadded warp e.2).map ofPatch }) sources =
      evaluate band n (es.map fun e => { e.1 with pixels := e.2.map ofPatch }) sources ∧
    evaluate band n (es.map fun e =>
        { e.1 with pixels := (Patch.staticPadded e.2).map ofPatch }) sources =
      evaluate band n (es.map fun e => { e.1 with pixels := e.2.map ofPatch }) sources := by
  have key : ∀ l pad : List (Patch.Pixel ℝ), (∀ p ∈ pad, p.ierr = 0) →
      weightedPixels ((l ++ pad).map ofPatch) = weightedPixels (l.map ofPatch) := by
    intro l pad hp
    simp only [weightedPixels, List.map_append, List.filter_append]
    have : (pad.map ofPatch).filter (fun p => decide (p.ierr ≠ 0)) = [] := by
      rw [List.filter_eq_nil_iff]
      intro q hq
      simp only [List.mem_map] at hq
      obtain ⟨p, hpm, rfl⟩ := hq
      simp [ofPatch, hp p hpm]
    rw [this, List.append_nil]
  constructor
  · apply C51_zero_weight
    induction es with
    | nil => exact .nil
    | cons e es ih =>
      refine .cons ⟨rfl, rfl, rfl, rfl, ?_⟩ ih
      obtain ⟨-, pad, h1, -, h3⟩ := Patch.C43_fits warp hw e.2
      simp only [h1]
      exact key _ _ fun p hp => (h3 p hp).1
  · apply C51_zero_weight
    induction es with
    | nil => exact .nil
    | cons e es ih =>
      refine .cons ⟨rfl, rfl, rfl, rfl, ?_⟩ ih
      obtain ⟨-, pad, h1, -, h3⟩ := Patch.C43_static e.2
      simp only [h1]
      exact key _ _ fun p hp => (h3 p hp).1

end Forcepho.Kernel

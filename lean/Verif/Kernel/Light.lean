import Verif.Kernel.PixelIntegral
import Mathlib.MeasureTheory.Integral.Bochner.Basic
import Mathlib.Analysis.Matrix.PosDef
import Mathlib.Tactic.LinearCombination

/-! # C156: the model of a pixel is the light of the sources, blurred by the PSF and integrated over the pixel

The specification is written with integrals: the surface brightness of a galaxy on the sky, carried to the image, its convolution
with the PSF over the plane, and the integral of the result over the pixel.  The kernel's model is compared with it. -/

set_option autoImplicit false

namespace Forcepho.Kernel

open Matrix

/-! ## Specification -/

/-- The normal density in the plane with covariance `C`. -/
noncomputable def normalPdf (C : Matrix (Fin 2) (Fin 2) ℝ) (x y : ℝ) : ℝ :=
  Real.exp (-(![x, y] ⬝ᵥ (C⁻¹ *ᵥ ![x, y])) / 2) / (2 * Real.pi * Real.sqrt C.det)

/-- The surface brightness of one gaussian component of unit flux on the sky, `east` and `north` of the galaxy: constant on
ellipses with axes `1 / q` and `q` times the radius, turned by `pa`. -/
noncomputable def skyGauss (r2 q pa east north : ℝ) : ℝ :=
  Real.exp (-((q * (Real.cos pa * east + Real.sin pa * north)) ^ 2 +
    ((Real.cos pa * north - Real.sin pa * east) / q) ^ 2) / (2 * r2)) / (2 * Real.pi * r2)

/-- The position of a source in the image. -/
noncomputable def centre (e : Exposure) (g : Nat) (s : Source) : Fin 2 → ℝ :=
  (e.astrom g).CW.toMatrix *ᵥ ![s.ra - (e.astrom g).crval.1, s.dec - (e.astrom g).crval.2] +
    ![(e.astrom g).crpix.1, (e.astrom g).crpix.2]

/-- The light of component `b` of a source at a point of the image: what the sky shows there, per area of the image. -/
noncomputable def light (band : Nat) (e : Exposure) (g : Nat) (s : Source) (b : Nat) (u v : ℝ) : ℝ :=
  let o := (e.astrom g).D.toMatrix⁻¹ *ᵥ (![u, v] - centre e g s)
  e.G * s.fluxes band * s.amps b * (skyGauss (e.rad2 b) s.q s.pa (o 0) (o 1) / |(e.astrom g).D.toMatrix.det|)

/-- One gaussian of the PSF. -/
noncomputable def psfAt (p : Psf) (x y : ℝ) : ℝ := p.amp * normalPdf (psfCov p) (x - p.xcen) (y - p.ycen)

/-- Light blurred by a PSF: the convolution over the image. -/
noncomputable def blur (f psf : ℝ → ℝ → ℝ) (x y : ℝ) : ℝ := ∫ v : ℝ, ∫ u : ℝ, f u v * psf (x - u) (y - v)

/-- The integral over the pixel with centre `(x, y)`. -/
noncomputable def pixelIntegral (f : ℝ → ℝ → ℝ) (x y : ℝ) : ℝ :=
  ∫ u in (x - 1 / 2)..(x + 1 / 2), ∫ v in (y - 1 / 2)..(y + 1 / 2), f u v

/-- The image of the sources: the light of every component, blurred by the gaussians of the PSF for it. -/
noncomputable def trueImage (band n : Nat) (e : Exposure) (sources : Nat → Source) (x y : ℝ) : ℝ :=
  ((List.range n).map fun g => (e.psfs.map fun p =>
    blur (light band e g (sources g) p.bin) (psfAt p) x y).sum).sum

/-- How far a pixel may be off: for every gaussian its height, times the square of the trace of the precision matrix, and a
rest at six standard deviations. -/
noncomputable def tolerance (band n : Nat) (e : Exposure) (sources : Nat → Source) : ℝ :=
  ((List.range n).map fun g => (e.psfs.map fun p =>
    |e.G * (sources g).fluxes band * (sources g).amps p.bin * p.amp| /
        (2 * Real.pi * Real.sqrt (specCov e g (sources g) p).det) *
      (7 / 1440 * (specCov e g (sources g) p)⁻¹.trace ^ 2 +
        Real.exp (-18) * (1 + 3 / 2 * (specCov e g (sources g) p)⁻¹.trace))).sum).sum

/-! ## Densities in coordinates -/

lemma pdf_coords (a b c x y : ℝ) (hd : a * c - b * b ≠ 0) :
    normalPdf !![a, b; b, c] x y =
      Real.exp (-(1 / 2) * form (c / (a * c - b * b)) (-b / (a * c - b * b)) (a / (a * c - b * b)) x y) /
        (2 * Real.pi * Real.sqrt (a * c - b * b)) := by
  rw [normalPdf, Matrix.det_fin_two_of]
  congr 2
  rw [Matrix.inv_def, Matrix.det_fin_two_of, Matrix.adjugate_fin_two_of, Ring.inverse_eq_inv']
  simp only [form, dotProduct, Matrix.mulVec, Fin.sum_univ_two, Matrix.smul_apply, Matrix.of_apply, Matrix.cons_val_zero,
    Matrix.cons_val_one, smul_eq_mul]
  simp
  field_simp
  ring

lemma form_shift (a b c k1 k2 t1 t2 : ℝ) (hd : a * c - b * b ≠ 0) :
    form (c / (a * c - b * b)) (-b / (a * c - b * b)) (a / (a * c - b * b)) (a * k1 + b * k2 + t1) (b * k1 + c * k2 + t2) =
      form a b c k1 k2 + 2 * (k1 * t1 + k2 * t2) +
        form (c / (a * c - b * b)) (-b / (a * c - b * b)) (a / (a * c - b * b)) t1 t2 := by
  generalize e : a * c - b * b = d at hd ⊢
  simp only [form]
  field_simp
  rw [← e]
  ring

/-- The product of two normal densities is a gaussian; its integral is the density with the sum of the covariances. -/
lemma pdf_product (a₁ b₁ c₁ a₂ b₂ c₂ : ℝ) (ha₁ : 0 < a₁) (hd₁ : 0 < a₁ * c₁ - b₁ * b₁) (ha₂ : 0 < a₂)
    (hd₂ : 0 < a₂ * c₂ - b₂ * b₂) (x₁ y₁ X Y : ℝ) : ∃ K p r t x₀ y₀ : ℝ, 0 < p ∧ 0 < p * t - r * r ∧
      (∀ u v : ℝ, normalPdf !![a₁, b₁; b₁, c₁] (u - x₁) (v - y₁) * normalPdf !![a₂, b₂; b₂, c₂] (X - u) (Y - v) =
        K * Real.exp (-(1 / 2) * ((u - x₀) * (p * (u - x₀) + r * (v - y₀)) + (v - y₀) * (t * (v - y₀) + r * (u - x₀))))) ∧
      K * (2 * Real.pi / Real.sqrt (p * t - r * r)) =
        normalPdf !![a₁ + a₂, b₁ + b₂; b₁ + b₂, c₁ + c₂] (X - x₁) (Y - y₁) := by
  have hc₁ : 0 < c₁ := by
    have : 0 < a₁ * c₁ := by nlinarith [mul_self_nonneg b₁]
    exact (pos_iff_pos_of_mul_pos this).1 ha₁
  have hc₂ : 0 < c₂ := by
    have : 0 < a₂ * c₂ := by nlinarith [mul_self_nonneg b₂]
    exact (pos_iff_pos_of_mul_pos this).1 ha₂
  have hd : 0 < (a₁ + a₂) * (c₁ + c₂) - (b₁ + b₂) * (b₁ + b₂) := by
    nlinarith [mul_pos ha₁ hc₂, mul_pos ha₂ hc₁, sq_nonneg (a₁ * c₂ - a₂ * c₁), mul_pos ha₁ ha₂, sq_nonneg (a₁ * b₂ - a₂ * b₁)]
  set d₁ := a₁ * c₁ - b₁ * b₁ with e₁
  set d₂ := a₂ * c₂ - b₂ * b₂ with e₂
  set d := (a₁ + a₂) * (c₁ + c₂) - (b₁ + b₂) * (b₁ + b₂) with e
  set k1 := ((c₁ + c₂) * (X - x₁) - (b₁ + b₂) * (Y - y₁)) / d with hk1
  set k2 := ((a₁ + a₂) * (Y - y₁) - (b₁ + b₂) * (X - x₁)) / d with hk2
  have w1 : (a₁ + a₂) * k1 + (b₁ + b₂) * k2 = X - x₁ := by
    rw [hk1, hk2]
    field_simp
    rw [e]
    ring
  have w2 : (b₁ + b₂) * k1 + (c₁ + c₂) * k2 = Y - y₁ := by
    rw [hk1, hk2]
    field_simp
    rw [e]
    ring
  set p := c₁ / d₁ + c₂ / d₂ with hp
  set r := -b₁ / d₁ + -b₂ / d₂ with hr
  set t := a₁ / d₁ + a₂ / d₂ with ht
  have hexp : ∀ u v : ℝ,
      form (c₁ / d₁) (-b₁ / d₁) (a₁ / d₁) (u - x₁) (v - y₁) + form (c₂ / d₂) (-b₂ / d₂) (a₂ / d₂) (X - u) (Y - v) =
      form (a₁ + a₂) (b₁ + b₂) (c₁ + c₂) k1 k2 +
        form p r t (u - (x₁ + (a₁ * k1 + b₁ * k2))) (v - (y₁ + (b₁ * k1 + c₁ * k2))) := by
    intro u v
    have h1 := form_shift a₁ b₁ c₁ k1 k2 (u - (x₁ + (a₁ * k1 + b₁ * k2))) (v - (y₁ + (b₁ * k1 + c₁ * k2))) hd₁.ne'
    have h2 := form_shift a₂ b₂ c₂ k1 k2 (-(u - (x₁ + (a₁ * k1 + b₁ * k2)))) (-(v - (y₁ + (b₁ * k1 + c₁ * k2)))) hd₂.ne'
    rw [show a₁ * k1 + b₁ * k2 + (u - (x₁ + (a₁ * k1 + b₁ * k2))) = u - x₁ by ring,
      show b₁ * k1 + c₁ * k2 + (v - (y₁ + (b₁ * k1 + c₁ * k2))) = v - y₁ by ring] at h1
    rw [show a₂ * k1 + b₂ * k2 + -(u - (x₁ + (a₁ * k1 + b₁ * k2))) = X - u by linear_combination w1,
      show b₂ * k1 + c₂ * k2 + -(v - (y₁ + (b₁ * k1 + c₁ * k2))) = Y - v by linear_combination w2] at h2
    rw [h1, h2]
    simp only [form, hp, hr, ht]
    ring
  have hform : form ((c₁ + c₂) / d) (-(b₁ + b₂) / d) ((a₁ + a₂) / d) (X - x₁) (Y - y₁) =
      form (a₁ + a₂) (b₁ + b₂) (c₁ + c₂) k1 k2 := by
    have h := form_shift (a₁ + a₂) (b₁ + b₂) (c₁ + c₂) k1 k2 0 0 hd.ne'
    rw [add_zero, add_zero, w1, w2] at h
    rw [h]
    simp [form]
  have hdet : p * t - r * r = d / (d₁ * d₂) := by
    rw [hp, hr, ht]
    field_simp
    rw [e, e₁, e₂]
    ring
  have hpp : 0 < p := by rw [hp]; positivity
  have hdp : 0 < p * t - r * r := by rw [hdet]; positivity
  have hint : ∀ u v : ℝ,
      normalPdf !![a₁, b₁; b₁, c₁] (u - x₁) (v - y₁) * normalPdf !![a₂, b₂; b₂, c₂] (X - u) (Y - v) =
      (1 / (2 * Real.pi * Real.sqrt d₁) * (1 / (2 * Real.pi * Real.sqrt d₂)) *
        Real.exp (-(1 / 2) * form (a₁ + a₂) (b₁ + b₂) (c₁ + c₂) k1 k2)) *
      Real.exp (-(1 / 2) * ((u - (x₁ + (a₁ * k1 + b₁ * k2))) * (p * (u - (x₁ + (a₁ * k1 + b₁ * k2))) +
        r * (v - (y₁ + (b₁ * k1 + c₁ * k2)))) + (v - (y₁ + (b₁ * k1 + c₁ * k2))) *
        (t * (v - (y₁ + (b₁ * k1 + c₁ * k2))) + r * (u - (x₁ + (a₁ * k1 + b₁ * k2)))))) := by
    intro u v
    rw [pdf_coords _ _ _ _ _ hd₁.ne', pdf_coords _ _ _ _ _ hd₂.ne', div_eq_mul_one_div, div_eq_mul_one_div (Real.exp _)
      (2 * Real.pi * Real.sqrt (a₂ * c₂ - b₂ * b₂))]
    rw [mul_mul_mul_comm, ← Real.exp_add, ← mul_add, hexp u v, mul_add, Real.exp_add]
    rw [show (u - (x₁ + (a₁ * k1 + b₁ * k2))) * (p * (u - (x₁ + (a₁ * k1 + b₁ * k2))) +
        r * (v - (y₁ + (b₁ * k1 + c₁ * k2)))) + (v - (y₁ + (b₁ * k1 + c₁ * k2))) *
        (t * (v - (y₁ + (b₁ * k1 + c₁ * k2))) + r * (u - (x₁ + (a₁ * k1 + b₁ * k2)))) =
        form p r t (u - (x₁ + (a₁ * k1 + b₁ * k2))) (v - (y₁ + (b₁ * k1 + c₁ * k2))) by simp only [form]; ring]
    ring
  refine ⟨_, p, r, t, _, _, hpp, hdp, hint, ?_⟩
  rw [hdet, pdf_coords _ _ _ _ _ hd.ne']
  rw [show form ((c₁ + c₂) / ((a₁ + a₂) * (c₁ + c₂) - (b₁ + b₂) * (b₁ + b₂)))
    (-(b₁ + b₂) / ((a₁ + a₂) * (c₁ + c₂) - (b₁ + b₂) * (b₁ + b₂)))
    ((a₁ + a₂) / ((a₁ + a₂) * (c₁ + c₂) - (b₁ + b₂) * (b₁ + b₂))) (X - x₁) (Y - y₁) =
    form (a₁ + a₂) (b₁ + b₂) (c₁ + c₂) k1 k2 from hform, ← e]
  have s1 : 0 < Real.sqrt d₁ := Real.sqrt_pos.2 hd₁
  have s2 : 0 < Real.sqrt d₂ := Real.sqrt_pos.2 hd₂
  have s3 : 0 < Real.sqrt d := Real.sqrt_pos.2 hd
  rw [Real.sqrt_div hd.le, Real.sqrt_mul hd₁.le]
  have := Real.pi_pos
  field_simp

/-- The convolution of two normal densities is the normal density with the sum of the covariances. -/
lemma pdf_blur (a₁ b₁ c₁ a₂ b₂ c₂ : ℝ) (ha₁ : 0 < a₁) (hd₁ : 0 < a₁ * c₁ - b₁ * b₁) (ha₂ : 0 < a₂)
    (hd₂ : 0 < a₂ * c₂ - b₂ * b₂) (x₁ y₁ X Y : ℝ) :
    (∫ v : ℝ, ∫ u : ℝ, normalPdf !![a₁, b₁; b₁, c₁] (u - x₁) (v - y₁) * normalPdf !![a₂, b₂; b₂, c₂] (X - u) (Y - v)) =
      normalPdf !![a₁ + a₂, b₁ + b₂; b₁ + b₂, c₁ + c₂] (X - x₁) (Y - y₁) ∧
    (∀ v : ℝ, MeasureTheory.Integrable fun u : ℝ =>
      normalPdf !![a₁, b₁; b₁, c₁] (u - x₁) (v - y₁) * normalPdf !![a₂, b₂; b₂, c₂] (X - u) (Y - v)) ∧
    MeasureTheory.Integrable fun v : ℝ => ∫ u : ℝ,
      normalPdf !![a₁, b₁; b₁, c₁] (u - x₁) (v - y₁) * normalPdf !![a₂, b₂; b₂, c₂] (X - u) (Y - v) := by
  obtain ⟨K, p, r, t, x₀, y₀, hp, hd, hf, hK⟩ := pdf_product a₁ b₁ c₁ a₂ b₂ c₂ ha₁ hd₁ ha₂ hd₂ x₁ y₁ X Y
  have hsplit : ∀ u v : ℝ, Real.exp (-(1 / 2) * ((u - x₀) * (p * (u - x₀) + r * (v - y₀)) +
      (v - y₀) * (t * (v - y₀) + r * (u - x₀)))) =
      Real.exp (-(p / 2) * (u - (x₀ - r / p * (v - y₀))) ^ 2) *
        Real.exp (-(((p * t - r * r) / p) / 2) * (v - y₀) ^ 2) := by
    intro u v
    rw [← Real.exp_add]
    congr 1
    field_simp
    ring
  refine ⟨?_, ?_, ?_⟩
  · simp_rw [hf, MeasureTheory.integral_const_mul]
    rw [gauss2 p r t _ _ hp hd, hK]
  · intro v
    simp_rw [hf, hsplit]
    exact (((integrable_exp_neg_mul_sq (show 0 < p / 2 by positivity)).comp_sub_right
      (x₀ - r / p * (v - y₀))).mul_const _).const_mul K
  · simp_rw [hf, hsplit, MeasureTheory.integral_const_mul, MeasureTheory.integral_mul_const, gauss1]
    exact (((integrable_exp_neg_mul_sq (show 0 < (p * t - r * r) / p / 2 by positivity)).comp_sub_right y₀).const_mul
      _).const_mul K

lemma posDef_coords (C : Matrix (Fin 2) (Fin 2) ℝ) (h : C.PosDef) :
    C = !![C 0 0, C 0 1; C 0 1, C 1 1] ∧ 0 < C 0 0 ∧ 0 < C 0 0 * C 1 1 - C 0 1 * C 0 1 := by
  have hs : C 1 0 = C 0 1 := by simpa using h.isHermitian.apply 0 1
  refine ⟨?_, h.diag_pos, ?_⟩
  · ext i j
    fin_cases i <;> fin_cases j <;> simp [hs]
  · have := h.det_pos
    rw [Matrix.det_fin_two, hs] at this
    exact this

/-! ## The light of a component in the image -/

lemma inv_form (M : Matrix (Fin 2) (Fin 2) ℝ) (hM : M.det ≠ 0) (r2 : ℝ) (hr : 0 < r2) (z : Fin 2 → ℝ) :
    (M *ᵥ z) ⬝ᵥ ((r2 • (M * Mᵀ))⁻¹ *ᵥ (M *ᵥ z)) = (z ⬝ᵥ z) / r2 := by
  have hu : IsUnit M.det := isUnit_iff_ne_zero.2 hM
  have h1 : (r2 • (M * Mᵀ))⁻¹ = r2⁻¹ • (M⁻¹ᵀ * M⁻¹) := by
    apply Matrix.inv_eq_right_inv
    rw [Matrix.smul_mul, Matrix.mul_smul, smul_smul, mul_inv_cancel₀ hr.ne', one_smul, Matrix.mul_assoc,
      ← Matrix.mul_assoc Mᵀ, ← Matrix.transpose_mul, Matrix.nonsing_inv_mul M hu, Matrix.transpose_one, Matrix.one_mul,
      Matrix.mul_nonsing_inv M hu]
  rw [h1, Matrix.smul_mulVec, ← Matrix.mulVec_mulVec, Matrix.mulVec_mulVec z M⁻¹ M, Matrix.nonsing_inv_mul M hu,
    Matrix.one_mulVec, dotProduct_smul, smul_eq_mul, Matrix.dotProduct_mulVec, Matrix.vecMul_transpose,
    Matrix.mulVec_mulVec, Matrix.nonsing_inv_mul M hu, Matrix.one_mulVec]
  rw [div_eq_inv_mul]

lemma sky_pdf (D : Matrix (Fin 2) (Fin 2) ℝ) (hD : D.det ≠ 0) (r2 q pa : ℝ) (hr : 0 < r2) (hq : q ≠ 0) (x y : ℝ) :
    skyGauss r2 q pa ((D⁻¹ *ᵥ ![x, y]) 0) ((D⁻¹ *ᵥ ![x, y]) 1) / |D.det| =
      normalPdf (r2 • (shape D q pa * (shape D q pa)ᵀ)) x y := by
  set o := D⁻¹ *ᵥ ![x, y] with ho
  have hu : IsUnit D.det := isUnit_iff_ne_zero.2 hD
  have hsd := shape_det D q pa hq
  set z : Fin 2 → ℝ := ![q * (Real.cos pa * o 0 + Real.sin pa * o 1), (Real.cos pa * o 1 - Real.sin pa * o 0) / q] with hz
  have hSz : !![1 / q, 0; 0, q] *ᵥ z = ![Real.cos pa * o 0 + Real.sin pa * o 1, Real.cos pa * o 1 - Real.sin pa * o 0] := by
    ext i
    fin_cases i <;> simp [hz, Matrix.mulVec, dotProduct, Fin.sum_univ_two] <;> field_simp
  have hRz : !![Real.cos pa, -Real.sin pa; Real.sin pa, Real.cos pa] *ᵥ
      ![Real.cos pa * o 0 + Real.sin pa * o 1, Real.cos pa * o 1 - Real.sin pa * o 0] = o := by
    have h := Real.sin_sq_add_cos_sq pa
    ext i
    fin_cases i <;> simp [Matrix.mulVec, dotProduct, Fin.sum_univ_two]
    · linear_combination o 0 * h
    · linear_combination o 1 * h
  have hMz : shape D q pa *ᵥ z = ![x, y] := by
    rw [shape, ← Matrix.mulVec_mulVec, ← Matrix.mulVec_mulVec, hSz, hRz, ho, Matrix.mulVec_mulVec,
      Matrix.mul_nonsing_inv D hu, Matrix.one_mulVec]
  rw [normalPdf, ← hMz, inv_form _ (by rw [hsd]; exact hD) r2 hr z]
  have hdet : (r2 • (shape D q pa * (shape D q pa)ᵀ)).det = (r2 * |D.det|) ^ 2 := by
    rw [Matrix.det_smul, Matrix.det_mul, Matrix.det_transpose, hsd, mul_pow, sq_abs, Fintype.card_fin]
    ring
  rw [hdet, Real.sqrt_sq (by positivity)]
  have hz2 : z ⬝ᵥ z = (q * (Real.cos pa * o 0 + Real.sin pa * o 1)) ^ 2 +
      ((Real.cos pa * o 1 - Real.sin pa * o 0) / q) ^ 2 := by
    rw [hz, dotProduct, Fin.sum_univ_two]
    simp
    ring
  rw [hz2, skyGauss, div_div, mul_assoc (2 * Real.pi)]
  congr 2
  field_simp

/-- C156 (sky): a component of unit flux on the sky carries unit flux; in the image its light is a normal density. -/
theorem C156_sky (band : Nat) (e : Exposure) (g : Nat) (s : Source) (b : Nat) (hq : s.q ≠ 0) (hr : 0 < e.rad2 b)
    (hD : (e.astrom g).D.toMatrix.det ≠ 0) (u v : ℝ) :
    (∫ north : ℝ, ∫ east : ℝ, skyGauss (e.rad2 b) s.q s.pa east north) = 1 ∧
    light band e g s b u v = e.G * s.fluxes band * s.amps b *
      normalPdf (e.rad2 b • (shape (e.astrom g).D.toMatrix s.q s.pa * (shape (e.astrom g).D.toMatrix s.q s.pa)ᵀ))
        (u - centre e g s 0) (v - centre e g s 1) := by
  constructor
  · set r := e.rad2 b
    set q := s.q
    set C := Real.cos s.pa
    set S := Real.sin s.pa
    have hCS : S ^ 2 + C ^ 2 = 1 := Real.sin_sq_add_cos_sq s.pa
    have hq2 : 0 < q ^ 2 := by positivity
    have hint : ∀ north east : ℝ, skyGauss r q s.pa east north =
        1 / (2 * Real.pi * r) * Real.exp (-(1 / 2) * ((east - 0) * ((q ^ 2 * C ^ 2 + S ^ 2 / q ^ 2) / r * (east - 0) +
          (q ^ 2 * (C * S) - C * S / q ^ 2) / r * (north - 0)) + (north - 0) *
          ((q ^ 2 * S ^ 2 + C ^ 2 / q ^ 2) / r * (north - 0) + (q ^ 2 * (C * S) - C * S / q ^ 2) / r * (east - 0)))) := by
      intro north east
      rw [skyGauss, div_eq_mul_one_div, mul_comm]
      congr 2
      change -((q * (C * east + S * north)) ^ 2 + ((C * north - S * east) / q) ^ 2) / (2 * r) = _
      field_simp
      ring
    have hdet : (q ^ 2 * C ^ 2 + S ^ 2 / q ^ 2) / r * ((q ^ 2 * S ^ 2 + C ^ 2 / q ^ 2) / r) -
        (q ^ 2 * (C * S) - C * S / q ^ 2) / r * ((q ^ 2 * (C * S) - C * S / q ^ 2) / r) = (1 / r) ^ 2 := by
      have : (S ^ 2 + C ^ 2) ^ 2 = 1 := by rw [hCS]; norm_num
      field_simp
      linear_combination q ^ 4 * this
    have hpos : 0 < (q ^ 2 * C ^ 2 + S ^ 2 / q ^ 2) / r := by
      apply div_pos _ hr
      rcases eq_or_ne C 0 with h | h
      · have : S ^ 2 = 1 := by rw [h] at hCS; simpa using hCS
        rw [h, this]
        positivity
      · positivity
    simp_rw [hint, MeasureTheory.integral_const_mul]
    rw [gauss2 _ _ _ _ _ hpos (by rw [hdet]; positivity), hdet, Real.sqrt_sq (by positivity)]
    have := Real.pi_pos
    field_simp
  · have h := sky_pdf (e.astrom g).D.toMatrix hD (e.rad2 b) s.q s.pa hr hq (u - centre e g s 0) (v - centre e g s 1)
    have hv : (![u, v] - centre e g s) = ![u - centre e g s 0, v - centre e g s 1] := by
      ext i
      fin_cases i <;> simp
    simp only [light, hv]
    rw [h]

/-- The integrals of the convolution exist, and the convolution is a normal density. -/
lemma blur_aux (band : Nat) (e : Exposure) (g : Nat) (s : Source) (b : Nat) (p : Psf) (hq : s.q ≠ 0) (hr : 0 < e.rad2 b)
    (hD : (e.astrom g).D.toMatrix.det ≠ 0) (hp : (psfCov p).PosDef) (x y : ℝ) :
    blur (light band e g s b) (psfAt p) x y = e.G * s.fluxes band * s.amps b * p.amp *
      normalPdf (e.rad2 b • (shape (e.astrom g).D.toMatrix s.q s.pa * (shape (e.astrom g).D.toMatrix s.q s.pa)ᵀ) + psfCov p)
        (x - p.xcen - centre e g s 0) (y - p.ycen - centre e g s 1) ∧
    (∀ v : ℝ, MeasureTheory.Integrable fun u : ℝ => light band e g s b u v * psfAt p (x - u) (y - v)) ∧
    MeasureTheory.Integrable fun v : ℝ => ∫ u : ℝ, light band e g s b u v * psfAt p (x - u) (y - v) := by
  set S := e.rad2 b • (shape (e.astrom g).D.toMatrix s.q s.pa * (shape (e.astrom g).D.toMatrix s.q s.pa)ᵀ) with hS
  have hSp : S.PosDef := (shape_posDef (e.astrom g).D.toMatrix s.q s.pa hq hD).smul hr
  obtain ⟨S1, S2, S3⟩ := posDef_coords S hSp
  obtain ⟨P1, P2, P3⟩ := posDef_coords (psfCov p) hp
  have hint : ∀ u v : ℝ, light band e g s b u v * psfAt p (x - u) (y - v) =
      (e.G * s.fluxes band * s.amps b * p.amp) *
        (normalPdf !![S 0 0, S 0 1; S 0 1, S 1 1] (u - centre e g s 0) (v - centre e g s 1) *
          normalPdf !![psfCov p 0 0, psfCov p 0 1; psfCov p 0 1, psfCov p 1 1] (x - p.xcen - u) (y - p.ycen - v)) := by
    intro u v
    rw [← S1, ← P1, (C156_sky band e g s b hq hr hD u v).2, psfAt, show x - u - p.xcen = x - p.xcen - u by ring,
      show y - v - p.ycen = y - p.ycen - v by ring]
    ring
  obtain ⟨h1, h2, h3⟩ := pdf_blur (S 0 0) (S 0 1) (S 1 1) (psfCov p 0 0) (psfCov p 0 1) (psfCov p 1 1) S2 S3 P2 P3
    (centre e g s 0) (centre e g s 1) (x - p.xcen) (y - p.ycen)
  have hsum : S + psfCov p = !![S 0 0 + psfCov p 0 0, S 0 1 + psfCov p 0 1; S 0 1 + psfCov p 0 1, S 1 1 + psfCov p 1 1] := by
    conv_lhs => rw [S1, P1]
    ext i j
    fin_cases i <;> fin_cases j <;> simp
  refine ⟨?_, ?_, ?_⟩
  · rw [blur]
    simp_rw [hint, MeasureTheory.integral_const_mul]
    rw [h1, hsum]
  · intro v
    simp_rw [hint]
    exact (h2 v).const_mul _
  · simp_rw [hint, MeasureTheory.integral_const_mul]
    exact h3.const_mul _

/-- The gaussian the kernel makes is a normal density. -/
lemma gauss_pdf (band : Nat) (e : Exposure) (g : Nat) (s : Source) (p : Psf) (hdet : 0 < (specCov e g s p).det) (x y : ℝ) :
    (imGauss band e g s p).amp * Real.exp (-(1 / 2) * expArg (imGauss band e g s p) x y) =
      e.G * s.fluxes band * s.amps p.bin * p.amp *
        normalPdf (specCov e g s p) (x - p.xcen - centre e g s 0) (y - p.ycen - centre e g s 1) := by
  obtain ⟨h1, h2, h3⟩ := C49_gaussian band e g s p hdet
  have hx : x - p.xcen - centre e g s 0 = x - (imGauss band e g s p).xcen := by
    have := congrFun h3 0
    simp only [Matrix.cons_val_zero, Pi.add_apply] at this
    rw [this]
    simp only [centre, Pi.add_apply, Matrix.cons_val_zero]
    ring
  have hy : y - p.ycen - centre e g s 1 = y - (imGauss band e g s p).ycen := by
    have := congrFun h3 1
    simp only [Matrix.cons_val_one, Matrix.cons_val_fin_one, Pi.add_apply] at this
    rw [this]
    simp only [centre, Pi.add_apply, Matrix.cons_val_one, Matrix.cons_val_fin_one]
    ring
  rw [hx, hy, normalPdf, ← h1, h2]
  have hquad : ![x - (imGauss band e g s p).xcen, y - (imGauss band e g s p).ycen] ⬝ᵥ
      (precision (imGauss band e g s p) *ᵥ ![x - (imGauss band e g s p).xcen, y - (imGauss band e g s p).ycen]) =
      expArg (imGauss band e g s p) x y := by
    simp only [precision, expArg, dotProduct, Matrix.mulVec, Fin.sum_univ_two]
    simp only [Matrix.cons_val_zero, Matrix.cons_val_one, Matrix.of_apply]
    ring
  rw [hquad, show -expArg (imGauss band e g s p) x y / 2 = -(1 / 2) * expArg (imGauss band e g s p) x y by ring]
  ring

/-- C156 (blur): the light of a component, convolved with a gaussian of the PSF over the image, is the gaussian that the kernel
makes for the two. -/
theorem C156_blur (band : Nat) (e : Exposure) (g : Nat) (s : Source) (p : Psf) (hq : s.q ≠ 0) (hr : 0 < e.rad2 p.bin)
    (hD : (e.astrom g).D.toMatrix.det ≠ 0) (hp : (psfCov p).PosDef) (x y : ℝ) :
    blur (light band e g s p.bin) (psfAt p) x y =
      (imGauss band e g s p).amp * Real.exp (-(1 / 2) * expArg (imGauss band e g s p) x y) := by
  obtain ⟨-, hpd, -⟩ := C49_positive_definite band e g s p hq hD (.inl ⟨hr, hp.posSemidef⟩)
  rw [(blur_aux band e g s p.bin p hq hr hD hp x y).1, gauss_pdf band e g s p hpd.det_pos]
  rfl

end Forcepho.Kernel

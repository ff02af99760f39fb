import Verif.Kernel.Light

/-! # C156, second part: the pixels of the image -/

set_option autoImplicit false

namespace Forcepho.Kernel

open Matrix

/-! ## One gaussian in one pixel -/

lemma expArg_form (g : ImGauss) (x y u v : ℝ) :
    expArg g (x + u) (y + v) = form g.fxx g.fxy g.fyy (x - g.xcen + u) (y - g.ycen + v) := by
  simp only [expArg, form]
  ring

/-- The integral over a pixel, with the centre of the pixel as the origin. -/
lemma pixel_shift (f : ℝ → ℝ → ℝ) (x y : ℝ) :
    pixelIntegral f x y = ∫ u in (-(1 / 2) : ℝ)..(1 / 2), ∫ v in (-(1 / 2) : ℝ)..(1 / 2), f (x + u) (y + v) := by
  have h : ∀ F : ℝ → ℝ, ∀ z : ℝ, (∫ u in (z - 1 / 2)..(z + 1 / 2), F u) = ∫ u in (-(1 / 2) : ℝ)..(1 / 2), F (z + u) := by
    intro F z
    rw [intervalIntegral.integral_comp_add_left, sub_eq_add_neg]
  rw [pixelIntegral, h]
  simp_rw [h]

lemma far_tail (t Q : ℝ) (ht : 0 ≤ t) (hQ : 36 < Q) :
    Real.exp (-(1 / 2) * Q) * (1 + t * Q / 24) ≤ Real.exp (-18) * (1 + 3 / 2 * t) := by
  have h1 : Real.exp (-18) = Real.exp (-(1 / 2) * Q) * Real.exp ((Q - 36) / 2) := by
    rw [← Real.exp_add]
    congr 1
    ring
  have h2 : (Q - 36) / 2 + 1 ≤ Real.exp ((Q - 36) / 2) := Real.add_one_le_exp _
  have h3 := Real.exp_pos (-(1 / 2) * Q)
  rw [h1, mul_assoc]
  apply mul_le_mul_of_nonneg_left _ h3.le
  have h4 : 0 ≤ (Real.exp ((Q - 36) / 2) - ((Q - 36) / 2 + 1)) * (1 + 3 / 2 * t) :=
    mul_nonneg (by linarith) (by positivity)
  have h5 : 0 ≤ (Q - 36) * t := mul_nonneg (by linarith) ht
  nlinarith

/-- C156 (pixel): what the kernel adds to a pixel for a gaussian is the integral of that gaussian over the pixel, up to the
square of the trace of the precision matrix and the cut at six standard deviations. -/
theorem C156_pixel (g : ImGauss) (ha : 0 < g.fxx) (hd : 0 < g.fxx * g.fyy - g.fxy * g.fxy) (x y : ℝ) :
    |contrib g x y - pixelIntegral (fun u v => g.amp * Real.exp (-(1 / 2) * expArg g u v)) x y| ≤
      |g.amp| * (7 / 1440 * (g.fxx + g.fyy) ^ 2 + Real.exp (-18) * (1 + 3 / 2 * (g.fxx + g.fyy))) := by
  have hc : 0 < g.fyy := by
    have : 0 < g.fxx * g.fyy := by nlinarith [mul_self_nonneg g.fxy]
    exact (pos_iff_pos_of_mul_pos this).1 ha
  have ht : 0 < g.fxx + g.fyy := by linarith
  have hb := pixel_bound g.fxx g.fxy g.fyy ha hd (x - g.xcen) (y - g.ycen)
  have hexp : 0 < Real.exp (-18) * (1 + 3 / 2 * (g.fxx + g.fyy)) := by positivity
  rw [pixel_shift]
  simp_rw [intervalIntegral.integral_const_mul, expArg_form]
  set I := ∫ u in (-(1 / 2) : ℝ)..(1 / 2), ∫ v in (-(1 / 2) : ℝ)..(1 / 2),
    Real.exp (-(1 / 2) * form g.fxx g.fxy g.fyy (x - g.xcen + u) (y - g.ycen + v)) with hI
  have hQ : expArg g x y = form g.fxx g.fxy g.fyy (x - g.xcen) (y - g.ycen) := by
    have := expArg_form g x y 0 0
    simpa using this
  have hH : hCorr g x y = 1 + ((g.fxx * (x - g.xcen) + g.fxy * (y - g.ycen)) ^ 2 +
      (g.fyy * (y - g.ycen) + g.fxy * (x - g.xcen)) ^ 2 - g.fxx - g.fyy) / 24 := rfl
  rw [← hQ, ← hH] at hb
  by_cases hcut : expArg g x y > maxExpArg
  · rw [contrib, if_pos hcut, zero_sub, abs_neg, abs_mul]
    apply mul_le_mul_of_nonneg_left _ (abs_nonneg _)
    have hcut' : 36 < expArg g x y := hcut
    have hv : (g.fxx * (x - g.xcen) + g.fxy * (y - g.ycen)) ^ 2 + (g.fyy * (y - g.ycen) + g.fxy * (x - g.xcen)) ^ 2 ≤
        (g.fxx + g.fyy) * expArg g x y := by
      rw [hQ, form]
      have : 0 ≤ (g.fxx * g.fyy - g.fxy * g.fxy) * ((x - g.xcen) ^ 2 + (y - g.ycen) ^ 2) := by positivity
      linarith
    have hHb : |hCorr g x y| ≤ 1 + (g.fxx + g.fyy) * expArg g x y / 24 := by
      rw [hH, abs_le]
      have h1 := sq_nonneg (g.fxx * (x - g.xcen) + g.fxy * (y - g.ycen))
      have h2 := sq_nonneg (g.fyy * (y - g.ycen) + g.fxy * (x - g.xcen))
      have h3 : (g.fxx + g.fyy) * 1 ≤ (g.fxx + g.fyy) * expArg g x y := mul_le_mul_of_nonneg_left (by linarith) ht.le
      constructor <;> linarith
    have h1 : |Real.exp (-(1 / 2) * expArg g x y) * hCorr g x y| ≤ Real.exp (-18) * (1 + 3 / 2 * (g.fxx + g.fyy)) := by
      rw [abs_mul, abs_of_pos (Real.exp_pos _)]
      exact (mul_le_mul_of_nonneg_left hHb (Real.exp_pos _).le).trans (far_tail _ _ ht.le hcut')
    have h2 : |I| ≤ |I - Real.exp (-(1 / 2) * expArg g x y) * hCorr g x y| +
        |Real.exp (-(1 / 2) * expArg g x y) * hCorr g x y| := by
      have := abs_add_le (I - Real.exp (-(1 / 2) * expArg g x y) * hCorr g x y)
        (Real.exp (-(1 / 2) * expArg g x y) * hCorr g x y)
      simpa using this
    linarith
  · rw [contrib, if_neg hcut, mul_assoc, ← mul_sub, abs_mul, abs_sub_comm]
    apply mul_le_mul_of_nonneg_left _ (abs_nonneg _)
    linarith

/-! ## Sums over gaussians -/

lemma pixel_sum {ι : Type} (l : List ι) (f : ι → ℝ → ℝ → ℝ) (hf : ∀ i ∈ l, Continuous (Function.uncurry (f i))) (x y : ℝ) :
    pixelIntegral (fun u v => (l.map fun i => f i u v).sum) x y = (l.map fun i => pixelIntegral (f i) x y).sum := by
  induction l with
  | nil => simp [pixelIntegral]
  | cons i l ih =>
    have hi := hf i (by simp)
    have hl : Continuous (Function.uncurry fun u v => (l.map fun j => f j u v).sum) :=
      continuous_list_sum l fun j hj => hf j (by simp [hj])
    rw [List.map_cons, List.sum_cons, ← ih fun j hj => hf j (by simp [hj])]
    simp only [pixelIntegral, List.map_cons, List.sum_cons]
    rw [← intervalIntegral.integral_add
      ((intervalIntegral.continuous_parametric_intervalIntegral_of_continuous' hi _ _).intervalIntegrable _ _)
      ((intervalIntegral.continuous_parametric_intervalIntegral_of_continuous' hl _ _).intervalIntegrable _ _)]
    congr 1
    funext u
    exact intervalIntegral.integral_add ((hi.comp (by fun_prop : Continuous fun v : ℝ => (u, v))).intervalIntegrable _ _)
      ((hl.comp (by fun_prop : Continuous fun v : ℝ => (u, v))).intervalIntegrable _ _)

lemma sum_bound {ι : Type} (l : List ι) (a b t : ι → ℝ) (h : ∀ i ∈ l, |a i - b i| ≤ t i) :
    |(l.map a).sum - (l.map b).sum| ≤ (l.map t).sum := by
  induction l with
  | nil => simp
  | cons i l ih =>
    simp only [List.map_cons, List.sum_cons]
    have h1 := h i (by simp)
    have h2 := ih fun j hj => h j (by simp [hj])
    calc _ = |(a i - b i) + ((l.map a).sum - (l.map b).sum)| := by congr 1; ring
      _ ≤ _ := (abs_add_le _ _).trans (add_le_add h1 h2)

lemma gauss_continuous (g : ImGauss) :
    Continuous (Function.uncurry fun u v : ℝ => g.amp * Real.exp (-(1 / 2) * expArg g u v)) := by
  simp only [Function.uncurry_def, expArg]
  fun_prop

/-- The gaussians the kernel makes, added up, are the image of the sources. -/
lemma trueImage_eq (band n : Nat) (e : Exposure) (sources : Nat → Source) (hq : ∀ g < n, (sources g).q ≠ 0)
    (hD : ∀ g < n, (e.astrom g).D.toMatrix.det ≠ 0) (hr : ∀ p ∈ e.psfs, 0 < e.rad2 p.bin)
    (hp : ∀ p ∈ e.psfs, (psfCov p).PosDef) :
    trueImage band n e sources = fun u v => ((List.range n).map fun g => (e.psfs.map fun p =>
      (imGauss band e g (sources g) p).amp * Real.exp (-(1 / 2) * expArg (imGauss band e g (sources g) p) u v)).sum).sum := by
  funext u v
  rw [trueImage]
  congr 1
  apply List.map_congr_left
  intro g hg
  congr 1
  apply List.map_congr_left
  intro p hpm
  have hg := List.mem_range.mp hg
  exact C156_blur band e g (sources g) p (hq g hg) (hr p hpm) (hD g hg) (hp p hpm) u v

/-- C156 (image): every pixel of the residual image is the data minus the image of the sources, integrated over the pixel, up to
the tolerance. -/
theorem C156_image (band n : Nat) (e : Exposure) (sources : Nat → Source) (hq : ∀ g < n, (sources g).q ≠ 0)
    (hD : ∀ g < n, (e.astrom g).D.toMatrix.det ≠ 0) (hr : ∀ p ∈ e.psfs, 0 < e.rad2 p.bin)
    (hp : ∀ p ∈ e.psfs, (psfCov p).PosDef) :
    ∃ m : Pixel → ℝ, residualImage band n e sources = e.pixels.map (fun px => px.data - m px) ∧
      ∀ px, |m px - pixelIntegral (trueImage band n e sources) px.x px.y| ≤ tolerance band n e sources := by
  refine ⟨fun px => ((List.range n).map fun g => (e.psfs.map fun p =>
    contrib (imGauss band e g (sources g) p) px.x px.y).sum).sum, ?_, ?_⟩
  · unfold residualImage
    apply List.map_congr_left
    intro px _
    rw [computeResidual_eq, sum_contrib]
  · intro px
    rw [trueImage_eq band n e sources hq hD hr hp, pixel_sum, tolerance]
    · apply sum_bound
      intro g hg
      have hg := List.mem_range.mp hg
      rw [pixel_sum _ _ fun p _ => gauss_continuous _]
      apply sum_bound
      intro p hpm
      obtain ⟨-, hpd, -⟩ := C49_positive_definite band e g (sources g) p (hq g hg) (hD g hg)
        (.inl ⟨hr p hpm, (hp p hpm).posSemidef⟩)
      obtain ⟨h1, h2, -⟩ := C49_gaussian band e g (sources g) p hpd.det_pos
      have hpi := hpd.inv
      rw [← h1] at hpi
      obtain ⟨-, c1, c2⟩ := posDef_coords _ hpi
      have hb := C156_pixel (imGauss band e g (sources g) p) c1 c2 px.x px.y
      rw [← h1]
      have htr : (precision (imGauss band e g (sources g) p)).trace =
          (imGauss band e g (sources g) p).fxx + (imGauss band e g (sources g) p).fyy := by
        simp [precision, Matrix.trace_fin_two]
      have hamp : |e.G * (sources g).fluxes band * (sources g).amps p.bin * p.amp| /
          (2 * Real.pi * Real.sqrt (specCov e g (sources g) p).det) = |(imGauss band e g (sources g) p).amp| := by
        rw [h2, abs_div, abs_of_nonneg (show 0 ≤ 2 * Real.pi * Real.sqrt (specCov e g (sources g) p).det by positivity)]
      rw [htr, hamp]
      exact hb
    · intro g _
      exact continuous_list_sum e.psfs fun p _ => gauss_continuous _

/-! ## The same PSF for every component -/

lemma sum_flat {ι : Type} (l : List ι) (f : ι → List ℝ) : (l.flatMap f).sum = (l.map fun a => (f a).sum).sum := by
  induction l with
  | nil => simp
  | cons a l ih => simp [ih]

lemma blur_sum {ι κ : Type} (bs : List ι) (ps : List κ) (f : ι → ℝ → ℝ → ℝ) (psf : κ → ℝ → ℝ → ℝ) (x y : ℝ)
    (h1 : ∀ b ∈ bs, ∀ p ∈ ps, ∀ v : ℝ, MeasureTheory.Integrable fun u : ℝ => f b u v * psf p (x - u) (y - v))
    (h2 : ∀ b ∈ bs, ∀ p ∈ ps, MeasureTheory.Integrable fun v : ℝ => ∫ u : ℝ, f b u v * psf p (x - u) (y - v)) :
    blur (fun u v => (bs.map fun b => f b u v).sum) (fun s t => (ps.map fun p => psf p s t).sum) x y =
      (bs.map fun b => (ps.map fun p => blur (f b) (psf p) x y).sum).sum := by
  have gen : ∀ (l : List (ι × κ)), (∀ i ∈ l, i.1 ∈ bs ∧ i.2 ∈ ps) →
      (∀ v : ℝ, MeasureTheory.Integrable fun u : ℝ => (l.map fun i => f i.1 u v * psf i.2 (x - u) (y - v)).sum) ∧
      (MeasureTheory.Integrable fun v : ℝ => ∫ u : ℝ, (l.map fun i => f i.1 u v * psf i.2 (x - u) (y - v)).sum) ∧
      (∫ v : ℝ, ∫ u : ℝ, (l.map fun i => f i.1 u v * psf i.2 (x - u) (y - v)).sum) =
        (l.map fun i => blur (f i.1) (psf i.2) x y).sum := by
    intro l hl
    induction l with
    | nil => simp
    | cons i l ih =>
      obtain ⟨a1, a2, a3⟩ := ih fun j hj => hl j (by simp [hj])
      obtain ⟨m1, m2⟩ := hl i (by simp)
      simp only [List.map_cons, List.sum_cons]
      have hin : ∀ v : ℝ, (∫ u : ℝ, (f i.1 u v * psf i.2 (x - u) (y - v) +
          (l.map fun i => f i.1 u v * psf i.2 (x - u) (y - v)).sum)) =
          (∫ u : ℝ, f i.1 u v * psf i.2 (x - u) (y - v)) +
            ∫ u : ℝ, (l.map fun i => f i.1 u v * psf i.2 (x - u) (y - v)).sum := fun v =>
        MeasureTheory.integral_add (h1 _ m1 _ m2 v) (a1 v)
      refine ⟨fun v => (h1 _ m1 _ m2 v).add (a1 v), ?_, ?_⟩
      · simp_rw [hin]
        exact (h2 _ m1 _ m2).add a2
      · simp_rw [hin]
        rw [MeasureTheory.integral_add (h2 _ m1 _ m2) a2, a3]
        rfl
  have hflat : ∀ F : ι → κ → ℝ, (bs.map fun b => (ps.map fun p => F b p).sum).sum =
      ((bs.flatMap fun b => ps.map fun p => (b, p)).map fun i => F i.1 i.2).sum := by
    intro F
    rw [List.map_flatMap, sum_flat]
    simp [Function.comp_def]
  rw [hflat, ← (gen _ ?_).2.2, blur]
  · congr 1
    funext v
    congr 1
    funext u
    rw [← hflat fun b p => f b u v * psf p (x - u) (y - v), ← List.sum_map_mul_right]
    simp_rw [← List.sum_map_mul_left]
  · intro i hi
    simp only [List.mem_flatMap, List.mem_map] at hi
    obtain ⟨b, hb, p, hpm, rfl⟩ := hi
    exact ⟨hb, hpm⟩

/-- C156 (one PSF): when the PSF is the same for all components of the profile, the image of the sources is the light of each
source, the sum of its components, convolved with the PSF, the sum of its gaussians. -/
theorem C156_common (band n : Nat) (e : Exposure) (sources : Nat → Source) (bins : List Nat) (base : List Psf)
    (hpsf : e.psfs = bins.flatMap fun b => base.map fun p => { p with bin := b })
    (hq : ∀ g < n, (sources g).q ≠ 0) (hD : ∀ g < n, (e.astrom g).D.toMatrix.det ≠ 0) (hr : ∀ b ∈ bins, 0 < e.rad2 b)
    (hp : ∀ p ∈ base, (psfCov p).PosDef) (x y : ℝ) :
    trueImage band n e sources x y = ((List.range n).map fun g =>
      blur (fun u v => (bins.map fun b => light band e g (sources g) b u v).sum)
        (fun s t => (base.map fun p => psfAt p s t).sum) x y).sum := by
  rw [trueImage]
  congr 1
  apply List.map_congr_left
  intro g hg
  have hg := List.mem_range.mp hg
  rw [blur_sum bins base (light band e g (sources g)) psfAt x y
    (fun b hb p hpm => (blur_aux band e g (sources g) b p (hq g hg) (hr b hb) (hD g hg) (hp p hpm) x y).2.1)
    (fun b hb p hpm => (blur_aux band e g (sources g) b p (hq g hg) (hr b hb) (hD g hg) (hp p hpm) x y).2.2),
    hpsf, List.map_flatMap, sum_flat]
  simp only [List.map_map]
  rfl

/-! ## Point sources -/

/-- C156 (point): a component without extent appears as the PSF, centred on the source and scaled by its counts. -/
theorem C156_point (band : Nat) (e : Exposure) (g : Nat) (s : Source) (p : Psf) (hr : e.rad2 p.bin = 0)
    (hp : (psfCov p).PosDef) (x y : ℝ) :
    (imGauss band e g s p).amp * Real.exp (-(1 / 2) * expArg (imGauss band e g s p) x y) =
      e.G * s.fluxes band * s.amps p.bin * psfAt p (x - centre e g s 0) (y - centre e g s 1) := by
  have hc : specCov e g s p = psfCov p := by
    rw [specCov, hr, zero_smul, zero_add]
  rw [gauss_pdf band e g s p (by rw [hc]; exact hp.det_pos), hc, psfAt, sub_right_comm x, sub_right_comm y]
  ring

/-! ## Narrow gaussians -/

/-- C156 (narrow): a gaussian of positive flux whose precision matrix has a trace above 24, a round one with a standard deviation
below 0.29 pixels, takes counts away from the pixel it is centred on. -/
theorem C156_narrow (band : Nat) (e : Exposure) (g : Nat) (s : Source) (p : Psf) (hdet : 0 < (specCov e g s p).det)
    (hf : 0 < e.G * s.fluxes band * s.amps p.bin * p.amp) (ht : 24 < (specCov e g s p)⁻¹.trace) :
    contrib (imGauss band e g s p) (centre e g s 0 + p.xcen) (centre e g s 1 + p.ycen) < 0 := by
  have hz : ![centre e g s 0 + p.xcen, centre e g s 1 + p.ycen] -
      ((e.astrom g).CW.toMatrix *ᵥ ![s.ra - (e.astrom g).crval.1, s.dec - (e.astrom g).crval.2] +
        ![(e.astrom g).crpix.1 + p.xcen, (e.astrom g).crpix.2 + p.ycen]) = 0 := by
    ext i
    fin_cases i
    · simp [centre, Matrix.vecHead]
      ring
    · simp [centre, Matrix.vecHead, Matrix.vecTail]
      ring
  rw [contrib_spec band e g s p hdet, hz, specCounts]
  simp only [Matrix.mulVec_zero, dotProduct_zero, neg_zero, zero_div, Real.exp_zero, mul_one, zero_sub]
  rw [if_neg (by norm_num)]
  have h1 : 0 < e.G * s.fluxes band * s.amps p.bin * p.amp / (2 * Real.pi * Real.sqrt (specCov e g s p).det) := by
    have := Real.sqrt_pos.mpr hdet
    have := Real.pi_pos
    positivity
  apply mul_neg_of_pos_of_neg h1
  linarith

/-- An exposure with an undistorted grid, a PSF of variance `c` and one pixel, at the source. -/
def flatE (r c : ℝ) : Exposure where
  G := 1
  astrom := fun _ => ⟨⟨1, 0, 0, 1⟩, ⟨1, 0, 0, 1⟩, (0, 0), (0, 0)⟩
  psfs := [⟨1, 0, 0, c, c, 0, 0⟩]
  rad2 := fun _ => r
  pixels := [⟨0, 0, 5, 1⟩]

/-- A round source of flux one. -/
def roundS : Source := ⟨0, 0, 1, 0, fun _ => 1, fun _ => 1, fun _ => 0, fun _ => 0⟩

lemma flat_cov (r c : ℝ) : specCov (flatE r c) 0 roundS ⟨1, 0, 0, c, c, 0, 0⟩ = !![r + c, 0; 0, r + c] := by
  ext i j
  fin_cases i <;> fin_cases j <;>
    simp [specCov, shape, psfCov, flatE, roundS, M22.toMatrix, Matrix.vecMul, dotProduct]

lemma flat_psf (c : ℝ) (hc : 0 < c) : (psfCov ⟨1, 0, 0, c, c, 0, 0⟩).PosDef := by
  have : psfCov ⟨1, 0, 0, c, c, 0, 0⟩ = Matrix.diagonal ![c, c] := by
    ext i j
    fin_cases i <;> fin_cases j <;> simp [psfCov]
  rw [this, Matrix.posDef_diagonal_iff]
  intro i
  fin_cases i <;> simpa using hc

lemma flat_D (r c : ℝ) : ((flatE r c).astrom 0).D.toMatrix.det ≠ 0 := by
  simp [flatE, M22.toMatrix, Matrix.det_fin_two]

/-- C156 fails for narrow gaussians: a source of flux one, with profile and PSF of standard deviation 0.1 pixels, should add a
positive number of counts to the pixel it is centred on; the kernel takes counts away. -/
theorem C156_narrow_refuted : ∃ (e : Exposure) (s : Source), s.q ≠ 0 ∧ (e.astrom 0).D.toMatrix.det ≠ 0 ∧
    (∀ p ∈ e.psfs, 0 < e.rad2 p.bin ∧ (psfCov p).PosDef) ∧
    ∃ px r, e.pixels = [px] ∧ residualImage 0 1 e (fun _ => s) = [r] ∧ px.data < r ∧
      0 ≤ pixelIntegral (trueImage 0 1 e fun _ => s) px.x px.y := by
  refine ⟨flatE (1 / 100) (1 / 100), roundS, by simp [roundS], flat_D _ _, ?_, ⟨0, 0, 5, 1⟩, _, rfl, rfl, ?_, ?_⟩
  · intro p hp
    simp only [flatE, List.mem_singleton] at hp
    subst hp
    exact ⟨by norm_num [flatE], flat_psf _ (by norm_num)⟩
  · simp only
    rw [computeResidual_eq, sum_contrib]
    have h := C156_narrow 0 (flatE (1 / 100) (1 / 100)) 0 roundS ⟨1, 0, 0, 1 / 100, 1 / 100, 0, 0⟩
      (by rw [flat_cov, Matrix.det_fin_two_of]; norm_num) (by norm_num [flatE, roundS])
      (by
        rw [flat_cov, Matrix.inv_def, Matrix.det_fin_two_of, Matrix.adjugate_fin_two_of, Ring.inverse_eq_inv',
          Matrix.trace_fin_two]
        norm_num)
    have hc : ∀ i, centre (flatE (1 / 100) (1 / 100)) 0 roundS i = 0 := by
      intro i
      fin_cases i <;> simp [centre, flatE, roundS, M22.toMatrix]
    rw [hc, hc] at h
    simp only [add_zero] at h
    simp only [List.range_one, List.map_cons, List.map_nil, List.sum_cons, List.sum_nil, add_zero]
    have he : (flatE (1 / 100) (1 / 100)).psfs = [⟨1, 0, 0, 1 / 100, 1 / 100, 0, 0⟩] := rfl
    rw [he]
    simp only [List.map_cons, List.map_nil, List.sum_cons, List.sum_nil, add_zero]
    linarith
  · apply intervalIntegral.integral_nonneg (by norm_num)
    intro u _
    apply intervalIntegral.integral_nonneg (by norm_num)
    intro v _
    rw [trueImage_eq]
    · have ha : ∀ g, 0 ≤ (imGauss 0 (flatE (1 / 100) (1 / 100)) g roundS ⟨1, 0, 0, 1 / 100, 1 / 100, 0, 0⟩).amp := by
        intro g
        rw [(C49_gaussian 0 (flatE (1 / 100) (1 / 100)) g roundS ⟨1, 0, 0, 1 / 100, 1 / 100, 0, 0⟩ (by
          change 0 < (specCov (flatE (1 / 100) (1 / 100)) 0 roundS _).det
          rw [flat_cov, Matrix.det_fin_two_of]
          norm_num)).2.1]
        simp only [flatE, roundS]
        positivity
      have he : (flatE (1 / 100) (1 / 100)).psfs = [⟨1, 0, 0, 1 / 100, 1 / 100, 0, 0⟩] := rfl
      simp only [List.range_one, List.map_cons, List.map_nil, List.sum_cons, List.sum_nil, add_zero, he]
      exact mul_nonneg (ha 0) (Real.exp_pos _).le
    · intro g _
      simp [roundS]
    · intro g _
      exact flat_D (1 / 100) (1 / 100)
    · intro p hp
      norm_num [flatE]
    · intro p hp
      simp only [flatE, List.mem_singleton] at hp
      subst hp
      exact flat_psf _ (by norm_num)

/-- The hypotheses of the positive theorems hold for a profile and a PSF of standard deviation two pixels. -/
example : ∃ m : Pixel → ℝ, residualImage 0 1 (flatE 4 4) (fun _ => roundS) =
      (flatE 4 4).pixels.map (fun px => px.data - m px) ∧
    ∀ px, |m px - pixelIntegral (trueImage 0 1 (flatE 4 4) fun _ => roundS) px.x px.y| ≤
      tolerance 0 1 (flatE 4 4) fun _ => roundS := by
  apply C156_image
  · intro g _
    simp [roundS]
  · intro g _
    exact flat_D 4 4
  · intro p _
    norm_num [flatE]
  · intro p hp
    simp only [flatE, List.mem_singleton] at hp
    subst hp
    exact flat_psf _ (by norm_num)

example (x y : ℝ) : trueImage 0 1 (flatE 4 4) (fun _ => roundS) x y =
    blur (fun u v => light 0 (flatE 4 4) 0 roundS 0 u v + 0) (fun s t => psfAt ⟨1, 0, 0, 4, 4, 0, 0⟩ s t + 0) x y + 0 :=
  C156_common 0 1 (flatE 4 4) (fun _ => roundS) [0] [⟨1, 0, 0, 4, 4, 0, 0⟩] rfl (by simp [roundS]) (fun g _ => flat_D 4 4)
    (by norm_num [flatE]) (fun p hp => by
      simp only [List.mem_singleton] at hp
      subst hp
      exact flat_psf _ (by norm_num)) x y

end Forcepho.Kernel

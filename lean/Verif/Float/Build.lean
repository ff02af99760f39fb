import Verif.Float.Pixel
import Mathlib.LinearAlgebra.Matrix.NonsingularInverse
import Mathlib.Analysis.SpecialFunctions.Trigonometric.Bounds

/-! # Image gaussians built in single precision

The shape and amplitude of an image gaussian as the compiled kernel computes them: the matrices of
compute_gaussians_kernel.cc:68-95, the operations of matrix22.cc and the first part of `GetGaussianAndJacobian`
(common_kernel.cc:175-195), every operation rounded to 24 bits, against the formulas they stand for, over the reals.
Overflow and underflow are left out.  `fma` is as in `Verif.Float.Pixel`.  Sine and cosine of the library are
parameters; division and square root are correctly rounded. -/

set_option autoImplicit false

namespace Forcepho.Float

/-- `matrix22` (matrix22.cc:32-34). -/
structure Mat where
  v11 : ℝ
  v12 : ℝ
  v21 : ℝ
  v22 : ℝ

/-- `rot` (matrix22.cc:70-73). -/
def rotM (cs sn : ℝ → ℝ) (pa : ℝ) : Mat := ⟨cs pa, -sn pa, sn pa, cs pa⟩

/-- `scale` (matrix22.cc:81-83). -/
noncomputable def scaleM (q : ℝ) : Mat := ⟨fl 24 (1 / q), 0, 0, q⟩

/-- The product of matrices (matrix22.cc:136-139). -/
noncomputable def mulM (fma : Bool) (A B : Mat) : Mat :=
  ⟨av fma A.v11 A.v12 B.v11 B.v21, av fma A.v11 A.v12 B.v12 B.v22,
    av fma A.v21 A.v22 B.v11 B.v21, av fma A.v21 A.v22 B.v12 B.v22⟩

/-- `AAt` (matrix22.cc:153-156). -/
noncomputable def aat (fma : Bool) (A : Mat) : Mat :=
  let tmp := av fma A.v11 A.v12 A.v21 A.v22
  ⟨av fma A.v11 A.v12 A.v11 A.v12, tmp, tmp, av fma A.v21 A.v22 A.v21 A.v22⟩

/-- A number times a matrix (matrix22.cc:123-125). -/
noncomputable def smulM (s : ℝ) (A : Mat) : Mat := ⟨fl 24 (s * A.v11), fl 24 (s * A.v12), fl 24 (s * A.v21), fl 24 (s * A.v22)⟩

/-- The sum of matrices (matrix22.cc:128-130). -/
noncomputable def addM (A B : Mat) : Mat :=
  ⟨fl 24 (A.v11 + B.v11), fl 24 (A.v12 + B.v12), fl 24 (A.v21 + B.v21), fl 24 (A.v22 + B.v22)⟩

/-- `det` (matrix22.cc:98). -/
noncomputable def detM (fma : Bool) (A : Mat) : ℝ :=
  if fma then fl 24 (A.v11 * A.v22 - fl 24 (A.v12 * A.v21)) else fl 24 (fl 24 (A.v11 * A.v22) - fl 24 (A.v12 * A.v21))

/-- `inv` (matrix22.cc:104-107). -/
noncomputable def invM (fma : Bool) (A : Mat) : Mat :=
  let idet := fl 24 (1 / detM fma A)
  ⟨fl 24 (A.v22 * idet), fl 24 (-A.v12 * idet), fl 24 (-A.v21 * idet), fl 24 (A.v11 * idet)⟩

/-- What is in memory when a gaussian is built: the matrix `D` of the exposure, shape parameters of the source, the
square of the radius, covariance of the PSF gaussian, and the factors of the amplitude
(compute_gaussians_kernel.cc:50-111). -/
structure Parts where
  D : Mat
  q : ℝ
  pa : ℝ
  rad2 : ℝ
  cxx : ℝ
  cxy : ℝ
  cyy : ℝ
  G : ℝ
  pamp : ℝ
  flux : ℝ
  samp : ℝ

/-- `sersicgauss.T = D * R * S` (compute_gaussians_kernel.cc:86). -/
noncomputable def tM (fma : Bool) (cs sn : ℝ → ℝ) (i : Parts) : Mat := mulM fma (mulM fma i.D (rotM cs sn i.pa)) (scaleM i.q)

/-- The covariance in pixels (common_kernel.cc:179-183). -/
noncomputable def covM (fma : Bool) (cs sn : ℝ → ℝ) (i : Parts) : Mat :=
  addM (smulM i.rad2 (aat fma (tM fma cs sn i))) ⟨i.cxx, i.cxy, i.cxy, i.cyy⟩

/-- `1.0f/(2.0f*(float) M_PI)` (common_kernel.cc:194). -/
noncomputable def invTwoPi : ℝ := fl 24 (1 / fl 24 (2 * fl 24 Real.pi))

/-- The image gaussian (common_kernel.cc:184-195), with its centre given. -/
noncomputable def buildGauss (fma : Bool) (cs sn : ℝ → ℝ) (i : Parts) (x y : ℝ) : Gauss :=
  let f := invM fma (covM fma cs sn i)
  let tmp := fl 24 (fl 24 (fl 24 (i.G * i.pamp) * fl 24 (Real.sqrt (detM fma f))) * invTwoPi)
  { amp := fl 24 (fl 24 (tmp * i.flux) * i.samp)
    xcen := x
    ycen := y
    fxx := f.v11
    fyy := f.v22
    fxy := f.v21 }

/-! ## Specification -/

/-- A matrix. -/
def Mat.toMatrix (A : Mat) : Matrix (Fin 2) (Fin 2) ℝ := !![A.v11, A.v12; A.v21, A.v22]

/-- The unit circle stretched, turned, and mapped to pixels. -/
noncomputable def trueT (i : Parts) : Matrix (Fin 2) (Fin 2) ℝ :=
  i.D.toMatrix * !![Real.cos i.pa, -Real.sin i.pa; Real.sin i.pa, Real.cos i.pa] * !![1 / i.q, 0; 0, i.q]

/-- The covariance in pixels. -/
noncomputable def trueCov (i : Parts) : Matrix (Fin 2) (Fin 2) ℝ :=
  i.rad2 • (trueT i * (trueT i).transpose) + !![i.cxx, i.cxy; i.cxy, i.cyy]

/-- The same without signs: the size of the terms that are added up. -/
noncomputable def sizeT (i : Parts) : Matrix (Fin 2) (Fin 2) ℝ :=
  !![|i.D.v11|, |i.D.v12|; |i.D.v21|, |i.D.v22|] *
    !![|Real.cos i.pa|, |Real.sin i.pa|; |Real.sin i.pa|, |Real.cos i.pa|] * !![1 / i.q, 0; 0, i.q]

/-- The size of the terms of the covariance. -/
noncomputable def sizeCov (i : Parts) : Matrix (Fin 2) (Fin 2) ℝ :=
  i.rad2 • (sizeT i * (sizeT i).transpose) + !![|i.cxx|, |i.cxy|; |i.cxy|, |i.cyy|]

/-- The quadratic form of a matrix. -/
def form (A : Matrix (Fin 2) (Fin 2) ℝ) (x y : ℝ) : ℝ := dotProduct ![x, y] (A.mulVec ![x, y])

/-- How much cancels when the covariance is computed and inverted: in no direction is the form less than the `K`-th part
of the sum of its terms. -/
def Cond (K : ℝ) (i : Parts) : Prop := ∀ x y : ℝ, form (sizeCov i) |x| |y| ≤ K * form (trueCov i) x y

/-- A PSF gaussian with a positive definite covariance, a radius, an axis ratio. -/
def Valid (i : Parts) : Prop :=
  0 < i.q ∧ 0 ≤ i.rad2 ∧ 0 < i.cxx ∧ i.cxy ^ 2 < i.cxx * i.cyy

/-- Sine and cosine of the library: two units in the last place. -/
def TrigOk (cs sn : ℝ → ℝ) : Prop :=
  ∀ x, |cs x - Real.cos x| ≤ |Real.cos x| / 2 ^ 22 ∧ |sn x - Real.sin x| ≤ |Real.sin x| / 2 ^ 22

/-- The amplitude: the flux in counts, the weights of the two components, over `2 π` and the square root of the
determinant. -/
noncomputable def trueAmp (i : Parts) : ℝ :=
  i.flux * i.G * i.samp * i.pamp / (2 * Real.pi * Real.sqrt (trueCov i).det)

/-- The gaussian at an offset from its centre, with the second-order correction for the extent of the pixel. -/
noncomputable def trueValue (i : Parts) (dx dy : ℝ) : ℝ :=
  let F := (trueCov i)⁻¹
  let v := F.mulVec ![dx, dy]
  trueAmp i * Real.exp (-form F dx dy / 2) * (1 + (dotProduct v v - F.trace) / 24)

/-! ## Quadratic forms in two variables -/

/-- `a x² + 2 b x y + c y²`. -/
def frm (a b c x y : ℝ) : ℝ := a * x ^ 2 + 2 * b * x * y + c * y ^ 2

lemma frm_pos {a b c : ℝ} (ha : 0 < a) (hd : 0 < a * c - b ^ 2) (x y : ℝ) : 0 ≤ frm a b c x y := by
  have h : a * frm a b c x y = (a * x + b * y) ^ 2 + (a * c - b ^ 2) * y ^ 2 := by rw [frm]; ring
  have h1 : 0 ≤ a * frm a b c x y := by
    rw [h]
    exact add_nonneg (sq_nonneg _) (mul_nonneg hd.le (sq_nonneg _))
  exact nonneg_of_mul_nonneg_right h1 ha

/-- The inverse reverses the order of forms. -/
lemma anti {a₁ b₁ c₁ a₂ b₂ c₂ k : ℝ} (h1 : 0 < a₁) (hd1 : 0 < a₁ * c₁ - b₁ ^ 2) (hd2 : 0 < a₂ * c₂ - b₂ ^ 2) (hk : 0 < k)
    (h : ∀ x y, frm a₁ b₁ c₁ x y ≤ k * frm a₂ b₂ c₂ x y) (x y : ℝ) :
    frm (c₂ / (a₂ * c₂ - b₂ ^ 2)) (-b₂ / (a₂ * c₂ - b₂ ^ 2)) (a₂ / (a₂ * c₂ - b₂ ^ 2)) x y ≤
      k * frm (c₁ / (a₁ * c₁ - b₁ ^ 2)) (-b₁ / (a₁ * c₁ - b₁ ^ 2)) (a₁ / (a₁ * c₁ - b₁ ^ 2)) x y := by
  obtain ⟨D1, hD1⟩ : ∃ D, D = a₁ * c₁ - b₁ ^ 2 := ⟨_, rfl⟩
  obtain ⟨D2, hD2⟩ : ∃ D, D = a₂ * c₂ - b₂ ^ 2 := ⟨_, rfl⟩
  rw [← hD1, ← hD2]
  rw [← hD1] at hd1
  rw [← hD2] at hd2
  have n1 := hd1.ne'
  have n2 := hd2.ne'
  obtain ⟨v, hv⟩ : ∃ v, v = (c₂ * x - b₂ * y) / D2 := ⟨_, rfl⟩
  obtain ⟨w, hw⟩ : ∃ w, w = (-b₂ * x + a₂ * y) / D2 := ⟨_, rfl⟩
  have q2 : frm (c₂ / D2) (-b₂ / D2) (a₂ / D2) x y = v * x + w * y := by
    rw [frm, hv, hw]; field_simp; ring
  have q2' : frm a₂ b₂ c₂ v w = v * x + w * y := by
    rw [frm, hv, hw]; field_simp; rw [hD2]; ring
  have hvw := h v w
  rw [q2'] at hvw
  rw [q2]
  -- completing the square
  have hq := frm_pos (a := c₁ / D1) (b := -b₁ / D1) (c := a₁ / D1) (by
      have : 0 < c₁ := by
        by_contra hc
        have := mul_nonneg h1.le (neg_nonneg.mpr (not_lt.mp hc))
        have := sq_nonneg b₁
        linarith
      positivity) (by
      have e : c₁ / D1 * (a₁ / D1) - (-b₁ / D1) ^ 2 = 1 / D1 := by field_simp; rw [hD1]; ring
      rw [e]; positivity)
    (k * x - (a₁ * v + b₁ * w)) (k * y - (b₁ * v + c₁ * w))
  have e : frm (c₁ / D1) (-b₁ / D1) (a₁ / D1) (k * x - (a₁ * v + b₁ * w)) (k * y - (b₁ * v + c₁ * w)) =
      k ^ 2 * frm (c₁ / D1) (-b₁ / D1) (a₁ / D1) x y - 2 * k * (v * x + w * y) + frm a₁ b₁ c₁ v w := by
    rw [frm, frm, frm]; field_simp; rw [hD1]; ring
  rw [e] at hq
  have h3 : 0 ≤ k * (k * frm (c₁ / D1) (-b₁ / D1) (a₁ / D1) x y - (v * x + w * y)) := by nlinarith
  have h4 := nonneg_of_mul_nonneg_right h3 hk
  linarith

/-- The determinant keeps the order of forms. -/
lemma det_mono {a₁ b₁ c₁ a₂ b₂ c₂ k : ℝ} (h1 : 0 < a₁) (hd1 : 0 < a₁ * c₁ - b₁ ^ 2)
    (h : ∀ x y, frm a₁ b₁ c₁ x y ≤ k * frm a₂ b₂ c₂ x y) :
    a₁ * c₁ - b₁ ^ 2 ≤ k ^ 2 * (a₂ * c₂ - b₂ ^ 2) := by
  have hc1 : 0 < c₁ := by
    by_contra hc
    have := mul_nonneg h1.le (neg_nonneg.mpr (not_lt.mp hc))
    have := sq_nonneg b₁
    linarith
  have ha : a₁ ≤ k * a₂ := by have := h 1 0; simp only [frm] at this; linarith
  -- the form of the second at the vector (b, -a)
  have h2 := h (k * b₂) (-(k * a₂))
  have e : k * frm a₂ b₂ c₂ (k * b₂) (-(k * a₂)) = k * a₂ * (k ^ 2 * (a₂ * c₂ - b₂ ^ 2)) := by rw [frm]; ring
  rw [e] at h2
  have h3 : k * a₂ * (a₁ * c₁ - b₁ ^ 2) ≤ frm a₁ b₁ c₁ (k * b₂) (-(k * a₂)) := by
    have ka : 0 < k * a₂ := lt_of_lt_of_le h1 ha
    have e2 : a₁ * frm a₁ b₁ c₁ (k * b₂) (-(k * a₂)) = (a₁ * (k * b₂) - b₁ * (k * a₂)) ^ 2 +
        (a₁ * c₁ - b₁ ^ 2) * (k * a₂) ^ 2 := by rw [frm]; ring
    have h4 : a₁ * (k * a₂ * (a₁ * c₁ - b₁ ^ 2)) ≤ a₁ * frm a₁ b₁ c₁ (k * b₂) (-(k * a₂)) := by
      rw [e2]
      have := mul_le_mul_of_nonneg_left ha (mul_nonneg hd1.le ka.le)
      nlinarith [sq_nonneg (a₁ * (k * b₂) - b₁ * (k * a₂))]
    exact le_of_mul_le_mul_left h4 h1
  have ka : 0 < k * a₂ := lt_of_lt_of_le h1 ha
  exact le_of_mul_le_mul_left (h3.trans h2) ka

/-- A bound on a form with one sign reversed bounds the sum of the sizes of its terms. -/
lemma size_le {a b c k : ℝ} (hk : 1 ≤ k) (ha : 0 < a) (hd : 0 < a * c - b ^ 2)
    (h : ∀ x y, frm a (-b) c x y ≤ k * frm a b c x y) (x y : ℝ) :
    a * x ^ 2 + 2 * |b| * |x| * |y| + c * y ^ 2 ≤ k * frm a b c x y := by
  have hp := frm_pos ha hd x y
  have h2 := h x y
  have e : 2 * |b| * |x| * |y| = |2 * b * x * y| := by
    rw [abs_mul, abs_mul, abs_mul, abs_of_pos (by norm_num : (0 : ℝ) < 2)]
  rw [e]
  rcases abs_choice (2 * b * x * y) with h' | h'
  · rw [h']
    have : a * x ^ 2 + 2 * b * x * y + c * y ^ 2 = frm a b c x y := rfl
    rw [this]
    nlinarith
  · rw [h']
    have : a * x ^ 2 + -(2 * b * x * y) + c * y ^ 2 = frm a (-b) c x y := by rw [frm]; ring
    rw [this]
    exact h2

/-- The determinant does not cancel more than the form. -/
lemma det_size {a b c k : ℝ} (ha : 0 < a) (h : ∀ x y, frm a (-b) c x y ≤ k * frm a b c x y) :
    a * c + 3 * b ^ 2 ≤ k * (a * c - b ^ 2) := by
  have h1 := h b (-a)
  have e1 : frm a (-b) c b (-a) = a * (a * c + 3 * b ^ 2) := by rw [frm]; ring
  have e2 : k * frm a b c b (-a) = a * (k * (a * c - b ^ 2)) := by rw [frm]; ring
  rw [e1, e2] at h1
  exact le_of_mul_le_mul_left h1 ha

lemma flip {a b c k : ℝ} (h : ∀ x y, frm a (-b) c x y ≤ k * frm a b c x y) (x y : ℝ) : frm a b c x y ≤ k * frm a (-b) c x y := by
  have h1 := h x (-y)
  have e1 : frm a (-b) c x (-y) = frm a b c x y := by rw [frm, frm]; ring
  have e2 : frm a b c x (-y) = frm a (-b) c x y := by rw [frm, frm]; ring
  rwa [e1, e2] at h1

lemma one_le_k {a b c k : ℝ} (ha : 0 < a) (h : ∀ x y, frm a (-b) c x y ≤ k * frm a b c x y) : 1 ≤ k := by
  have h1 := h 1 0
  simp only [frm] at h1
  nlinarith

lemma pos_c {a b c : ℝ} (ha : 0 < a) (hd : 0 < a * c - b ^ 2) : 0 < c := by
  by_contra hc
  have := mul_nonneg ha.le (neg_nonneg.mpr (not_lt.mp hc))
  have := sq_nonneg b
  linarith

/-! ## The determinant and the inverse in single precision -/

lemma Ap.neg {r x' x A : ℝ} (h : Ap r x' x A) : Ap r (-x') (-x) A := by
  refine ⟨h.1, ?_, by rw [abs_neg]; exact h.2.2⟩
  have e : -x' - -x = -(x' - x) := by ring
  rw [e, abs_neg]
  exact h.2.1

lemma detM_ap (fma : Bool) (A : Mat) (hs : A.v12 = A.v21) :
    Ap (w1 ^ 2) (detM fma A) (A.v11 * A.v22 - A.v21 ^ 2) (|A.v11 * A.v22| + A.v21 ^ 2) := by
  have h1 := (Ap.refl (A.v11 * A.v22))
  have h2 := (Ap.refl (A.v12 * A.v21)).fl
  have hw := w1_ge
  have h3 : Ap (w1 ^ 2) (detM fma A) (A.v11 * A.v22 - A.v12 * A.v21) (|A.v11 * A.v22| + |A.v12 * A.v21|) := by
    rw [detM]
    split
    · refine (Ap.sub (h1.mono (show (1 : ℝ) ≤ 1 * (1 + 1 / 2 ^ 24) by norm_num) le_rfl) h2).fl.mono (le_of_eq ?_) le_rfl
      rw [w1]; ring
    · refine (Ap.sub h1.fl h2).fl.mono (le_of_eq ?_) le_rfl
      rw [w1]; ring
  rw [hs] at h3
  rw [abs_mul_self, ← sq] at h3
  exact h3

lemma w2 : w1 ^ 2 - 1 ≤ 21 / 10 / 2 ^ 24 := by rw [w1]; norm_num

/-- The determinant, when the form cancels at most to the `k`-th part. -/
lemma detM_rel (fma : Bool) (A : Mat) (hs : A.v12 = A.v21) (k : ℝ) (ha : 0 < A.v11)
    (hd : 0 < A.v11 * A.v22 - A.v21 ^ 2) (h : ∀ x y, frm A.v11 (-A.v21) A.v22 x y ≤ k * frm A.v11 A.v21 A.v22 x y) :
    |detM fma A - (A.v11 * A.v22 - A.v21 ^ 2)| ≤ 21 / 10 / 2 ^ 24 * k * (A.v11 * A.v22 - A.v21 ^ 2) := by
  have h1 := (detM_ap fma A hs).2.1
  have h2 := det_size ha h
  have hc := pos_c ha hd
  have h3 : |A.v11 * A.v22| + A.v21 ^ 2 ≤ k * (A.v11 * A.v22 - A.v21 ^ 2) := by
    rw [abs_of_pos (by positivity)]
    nlinarith [sq_nonneg A.v21]
  refine h1.trans ((mul_le_mul w2 h3 (by positivity) (by positivity)).trans (le_of_eq (by ring)))

/-- The error of a form from the errors of its coefficients and a common factor. -/
lemma inv_num {a b c f1 f2 f3 l k ε x y : ℝ} (k1 : 1 ≤ k) (hk : k ≤ 2 ^ 11) (hε : ε = 21 / 10 / 2 ^ 24 * k)
    (h2 : |l - 1| ≤ 1003 / 1000 * ε + 1 / 2 ^ 24) (l0 : 0 < l) (hpos : 0 ≤ frm a b c x y)
    (hsz : a * x ^ 2 + 2 * |b| * |x| * |y| + c * y ^ 2 ≤ k * frm a b c x y)
    (e1 : |f1 - l * a| ≤ 1 / 2 ^ 24 * (l * a)) (e2 : |f2 - l * b| ≤ 1 / 2 ^ 24 * (l * |b|))
    (e3 : |f3 - l * c| ≤ 1 / 2 ^ 24 * (l * c)) :
    |frm f1 f2 f3 x y - frm a b c x y| ≤ 43 / 10 / 2 ^ 24 * k * frm a b c x y := by
  have t : |frm f1 f2 f3 x y - l * frm a b c x y| ≤ 1 / 2 ^ 24 * l * (a * x ^ 2 + 2 * |b| * |x| * |y| + c * y ^ 2) := by
    have e : frm f1 f2 f3 x y - l * frm a b c x y = (f1 - l * a) * x ^ 2 + 2 * (f2 - l * b) * x * y + (f3 - l * c) * y ^ 2 := by
      rw [frm, frm]; ring
    rw [e]
    refine (abs_add_three _ _ _).trans ?_
    rw [abs_mul, abs_mul, abs_mul, abs_mul, abs_mul, abs_of_pos (by norm_num : (0 : ℝ) < 2), abs_of_nonneg (sq_nonneg x),
      abs_of_nonneg (sq_nonneg y)]
    have u1 := mul_le_mul_of_nonneg_right e1 (sq_nonneg x)
    have u2 := mul_le_mul_of_nonneg_right e2 (show 0 ≤ 2 * (|x| * |y|) by positivity)
    have u3 := mul_le_mul_of_nonneg_right e3 (sq_nonneg y)
    linarith
  have t2 : |frm f1 f2 f3 x y - l * frm a b c x y| ≤ 1 / 2 ^ 24 * l * (k * frm a b c x y) :=
    t.trans (mul_le_mul_of_nonneg_left hsz (by positivity))
  generalize frm f1 f2 f3 x y = F at *
  generalize frm a b c x y = Q at *
  have kQ : Q ≤ k * Q := le_mul_of_one_le_left hpos k1
  have t3 := abs_le.1 t2
  have hl2 := abs_le.1 h2
  have s1 : 1 / 2 ^ 24 * l * (k * Q) ≤ 102 / 100 / 2 ^ 24 * (k * Q) := by
    have : l ≤ 102 / 100 := by nlinarith
    have := mul_le_mul_of_nonneg_right this (show 0 ≤ k * Q by positivity)
    linarith
  have s2 : |l * Q - Q| ≤ (1003 / 1000 * ε + 1 / 2 ^ 24) * Q := by
    have : l * Q - Q = (l - 1) * Q := by ring
    rw [this, abs_mul, abs_of_nonneg hpos]
    exact mul_le_mul_of_nonneg_right h2 hpos
  have s3 := abs_le.1 s2
  have s4 : (1003 / 1000 * ε + 1 / 2 ^ 24) * Q ≤ (2107 / 1000 + 1) / 2 ^ 24 * (k * Q) := by
    rw [hε]
    have := mul_nonneg (show 0 ≤ k by linarith) hpos
    nlinarith
  have := mul_nonneg (show 0 ≤ k by linarith) hpos
  rw [abs_le]
  constructor <;> linarith

/-- The inverse, when the form cancels at most to the `k`-th part: the error of the form of the inverse. -/
lemma invM_form (fma : Bool) (A : Mat) (hs : A.v12 = A.v21) (k : ℝ) (hk : k ≤ 2 ^ 11) (ha : 0 < A.v11)
    (hd : 0 < A.v11 * A.v22 - A.v21 ^ 2) (h : ∀ x y, frm A.v11 (-A.v21) A.v22 x y ≤ k * frm A.v11 A.v21 A.v22 x y) :
    (invM fma A).v12 = (invM fma A).v21 ∧ 0 < (invM fma A).v11 ∧
    ∀ x y, |frm (invM fma A).v11 (invM fma A).v21 (invM fma A).v22 x y -
      frm (A.v22 / (A.v11 * A.v22 - A.v21 ^ 2)) (-A.v21 / (A.v11 * A.v22 - A.v21 ^ 2)) (A.v11 / (A.v11 * A.v22 - A.v21 ^ 2)) x y| ≤
      43 / 10 / 2 ^ 24 * k *
      frm (A.v22 / (A.v11 * A.v22 - A.v21 ^ 2)) (-A.v21 / (A.v11 * A.v22 - A.v21 ^ 2)) (A.v11 / (A.v11 * A.v22 - A.v21 ^ 2)) x y := by
  have k1 := one_le_k ha h
  have hc := pos_c ha hd
  have hdet := detM_rel fma A hs k ha hd h
  have hJ : ∀ x y, frm (A.v22 / (A.v11 * A.v22 - A.v21 ^ 2)) (-(-A.v21 / (A.v11 * A.v22 - A.v21 ^ 2))) (A.v11 / (A.v11 * A.v22 - A.v21 ^ 2)) x y
      ≤ k * frm (A.v22 / (A.v11 * A.v22 - A.v21 ^ 2)) (-A.v21 / (A.v11 * A.v22 - A.v21 ^ 2)) (A.v11 / (A.v11 * A.v22 - A.v21 ^ 2)) x y := by
    intro x y
    have hd' : 0 < A.v11 * A.v22 - (-A.v21) ^ 2 := by rwa [neg_sq]
    have := anti (a₁ := A.v11) (b₁ := A.v21) (c₁ := A.v22) (a₂ := A.v11) (b₂ := -A.v21) (c₂ := A.v22) ha hd hd'
      (by linarith) (flip h) x y
    rw [neg_sq] at this
    rw [← neg_div]
    exact this
  obtain ⟨D, hD⟩ : ∃ D, D = A.v11 * A.v22 - A.v21 ^ 2 := ⟨_, rfl⟩
  obtain ⟨d, hdd⟩ : ∃ d, d = detM fma A := ⟨_, rfl⟩
  rw [← hD] at hd hdet hJ ⊢
  rw [← hdd] at hdet
  have iD : 0 < 1 / D := by positivity
  -- the factor common to all entries
  obtain ⟨i, hi⟩ : ∃ i, i = fl 24 (1 / d) := ⟨_, rfl⟩
  obtain ⟨ε, hε⟩ : ∃ ε, ε = 21 / 10 / 2 ^ 24 * k := ⟨_, rfl⟩
  rw [← hε] at hdet
  have ε0 : 0 ≤ ε := by rw [hε]; positivity
  have ε1 : ε ≤ 1 / 1000 := by rw [hε]; nlinarith
  have dpos : (1 - ε) * D ≤ d := by have := abs_le.1 hdet; nlinarith
  have dpos' : 0 < d := lt_of_lt_of_le (mul_pos (by linarith) hd) dpos
  have h1 : |1 / d * D - 1| ≤ 1002 / 1000 * ε := by
    have e : 1 / d * D - 1 = (D - d) / d := by field_simp
    rw [e, abs_div, abs_of_pos dpos', div_le_iff₀ dpos', abs_sub_comm]
    refine hdet.trans ?_
    have : 1002 / 1000 * ε * ((1 - ε) * D) ≤ 1002 / 1000 * ε * d := mul_le_mul_of_nonneg_left dpos (by positivity)
    have : ε * D ≤ 1002 / 1000 * ε * ((1 - ε) * D) := by
      have : ε * D * (1 - ε) * (1002 / 1000) ≥ ε * D := by nlinarith [mul_nonneg ε0 hd.le]
      linarith
    linarith
  have h2 : |i * D - 1| ≤ 1003 / 1000 * ε + 1 / 2 ^ 24 := by
    have e := fl_err 24 (1 / d)
    rw [← hi, abs_of_pos (by positivity : 0 < 1 / d)] at e
    have e2 : |i * D - 1 / d * D| ≤ (1 / d * D) / 2 ^ 24 := by
      rw [← sub_mul, abs_mul, abs_of_pos hd]
      calc |i - 1 / d| * D ≤ 1 / d / 2 ^ 24 * D := by gcongr
        _ = _ := by ring
    have t := abs_sub_le (i * D) (1 / d * D) 1
    have := abs_le.1 h1
    nlinarith
  obtain ⟨l, hl⟩ : ∃ l, l = i * D := ⟨_, rfl⟩
  rw [← hl] at h2
  have hl2 := abs_le.1 h2
  have l0 : 0 < l := by nlinarith
  have hi2 : i = l / D := by rw [hl]; field_simp
  -- the entries
  have hent : ∀ v : ℝ, |fl 24 (v * i) - l * (v / D)| ≤ 1 / 2 ^ 24 * (l * |v / D|) := by
    intro v
    have e := fl_err 24 (v * i)
    have e1 : v * i = l * (v / D) := by rw [hi2]; ring
    rw [e1] at e ⊢
    rw [abs_mul, abs_of_pos l0] at e
    linarith
  have hinv : invM fma A = ⟨fl 24 (A.v22 * i), fl 24 (-A.v12 * i), fl 24 (-A.v21 * i), fl 24 (A.v11 * i)⟩ := by
    rw [invM, hi, hdd]
  rw [hinv]
  dsimp only
  refine ⟨by rw [hs], ?_, ?_⟩
  · have e := hent A.v22
    have cp : 0 < A.v22 / D := by positivity
    rw [abs_of_pos cp] at e
    have := abs_le.1 e
    have := mul_pos l0 cp
    nlinarith
  · intro x y
    have e1 := hent A.v22
    have e2 := hent (-A.v21)
    have e3 := hent A.v11
    have hpos := frm_pos (a := A.v22 / D) (b := -A.v21 / D) (c := A.v11 / D) (by positivity) (by
      have e : A.v22 / D * (A.v11 / D) - (-A.v21 / D) ^ 2 = 1 / D := by field_simp; rw [hD]; ring
      rw [e]; exact iD) x y
    have hsz := size_le k1 (show 0 < A.v22 / D by positivity) (by
      have e : A.v22 / D * (A.v11 / D) - (-A.v21 / D) ^ 2 = 1 / D := by field_simp; rw [hD]; ring
      rw [e]; exact iD) hJ x y
    rw [abs_of_pos (show 0 < A.v22 / D by positivity)] at e1
    rw [abs_of_pos (show 0 < A.v11 / D by positivity)] at e3
    generalize fl 24 (A.v22 * i) = f1 at *
    generalize fl 24 (-A.v21 * i) = f2 at *
    generalize fl 24 (A.v11 * i) = f3 at *
    generalize A.v22 / D = a at *
    generalize -A.v21 / D = b at *
    generalize A.v11 / D = c at *
    exact inv_num k1 hk hε h2 l0 hpos hsz e1 e2 e3

/-! ## Close forms -/

lemma anti_flip {a b c k : ℝ} (ha : 0 < a) (hd : 0 < a * c - b ^ 2) (h : ∀ x y, frm a (-b) c x y ≤ k * frm a b c x y) (x y : ℝ) :
    frm (c / (a * c - b ^ 2)) (-(-b / (a * c - b ^ 2))) (a / (a * c - b ^ 2)) x y ≤
      k * frm (c / (a * c - b ^ 2)) (-b / (a * c - b ^ 2)) (a / (a * c - b ^ 2)) x y := by
  have hd' : 0 < a * c - (-b) ^ 2 := by rwa [neg_sq]
  have k1 := one_le_k ha h
  have := anti (a₁ := a) (b₁ := b) (c₁ := c) (a₂ := a) (b₂ := -b) (c₂ := c) ha hd hd' (by linarith) (flip h) x y
  rw [neg_sq] at this
  rw [← neg_div]
  exact this

lemma near_of_size {a b c a' b' c' Z1 Z2 Z3 e K : ℝ} (he : 0 ≤ e) (h1 : |a' - a| ≤ e * Z1) (h2 : |b' - b| ≤ e * Z2)
    (h3 : |c' - c| ≤ e * Z3) (hZ : ∀ x y, Z1 * x ^ 2 + 2 * Z2 * |x| * |y| + Z3 * y ^ 2 ≤ K * frm a b c x y) (x y : ℝ) :
    |frm a' b' c' x y - frm a b c x y| ≤ e * K * frm a b c x y := by
  have e1 : frm a' b' c' x y - frm a b c x y = (a' - a) * x ^ 2 + 2 * (b' - b) * x * y + (c' - c) * y ^ 2 := by
    rw [frm, frm]; ring
  rw [e1]
  refine (abs_add_three _ _ _).trans ?_
  rw [abs_mul, abs_mul, abs_mul, abs_mul, abs_mul, abs_of_pos (by norm_num : (0 : ℝ) < 2), abs_of_nonneg (sq_nonneg x),
    abs_of_nonneg (sq_nonneg y)]
  have u1 := mul_le_mul_of_nonneg_right h1 (sq_nonneg x)
  have u2 := mul_le_mul_of_nonneg_right h2 (show 0 ≤ 2 * (|x| * |y|) by positivity)
  have u3 := mul_le_mul_of_nonneg_right h3 (sq_nonneg y)
  have u4 := mul_le_mul_of_nonneg_left (hZ x y) he
  linarith

/-- A form close to a positive one: it is positive, and its inverse is close. -/
lemma near_pos {a b c a' b' c' t : ℝ} (t1 : t < 1) (ha : 0 < a) (hd : 0 < a * c - b ^ 2)
    (h : ∀ x y, |frm a' b' c' x y - frm a b c x y| ≤ t * frm a b c x y) :
    0 < a' ∧ (1 - t) ^ 2 * (a * c - b ^ 2) ≤ a' * c' - b' ^ 2 ∧ 0 < a' * c' - b' ^ 2 := by
  have h1 : 0 < a' := by
    have := (abs_le.1 (h 1 0)).1
    simp only [frm] at this
    nlinarith
  have t' : 0 < 1 - t := by linarith
  have h2 := det_mono (k := 1 / (1 - t)) (a₂ := a') (b₂ := b') (c₂ := c') ha hd (fun x y => by
    have := (abs_le.1 (h x y)).1
    rw [div_mul_eq_mul_div, one_mul, le_div_iff₀ t']
    linarith)
  have h3 : (1 - t) ^ 2 * (a * c - b ^ 2) ≤ a' * c' - b' ^ 2 := by
    have := mul_le_mul_of_nonneg_left h2 (sq_nonneg (1 - t))
    have e : (1 - t) ^ 2 * ((1 / (1 - t)) ^ 2 * (a' * c' - b' ^ 2)) = a' * c' - b' ^ 2 := by field_simp
    rwa [e] at this
  exact ⟨h1, h3, lt_of_lt_of_le (mul_pos (by positivity) hd) h3⟩

lemma near_det {a b c a' b' c' t : ℝ} (t1 : t < 1) (ha : 0 < a) (hd : 0 < a * c - b ^ 2)
    (h : ∀ x y, |frm a' b' c' x y - frm a b c x y| ≤ t * frm a b c x y) :
    a' * c' - b' ^ 2 ≤ (1 + t) ^ 2 * (a * c - b ^ 2) := by
  obtain ⟨h1, h2, h3⟩ := near_pos t1 ha hd h
  exact det_mono h1 h3 (fun x y => by have := (abs_le.1 (h x y)).2; linarith)

lemma near_flip {a b c a' b' c' t k : ℝ} (t0 : 0 ≤ t) (t1 : t < 1) (hk : 0 ≤ k)
    (h : ∀ x y, |frm a' b' c' x y - frm a b c x y| ≤ t * frm a b c x y)
    (hJ : ∀ x y, frm a (-b) c x y ≤ k * frm a b c x y) (x y : ℝ) :
    frm a' (-b') c' x y ≤ (1 + t) / (1 - t) * k * frm a' b' c' x y := by
  have e1 : frm a' (-b') c' x y = frm a' b' c' x (-y) := by rw [frm, frm]; ring
  have e2 : frm a b c x (-y) = frm a (-b) c x y := by rw [frm, frm]; ring
  have h1 := (abs_le.1 (h x (-y))).2
  rw [e2] at h1
  have h2 := hJ x y
  have h3 := (abs_le.1 (h x y)).1
  rw [e1]
  have t' : 0 < 1 - t := by linarith
  rw [div_mul_eq_mul_div, div_mul_eq_mul_div, le_div_iff₀ t']
  have h4 := mul_le_mul_of_nonneg_left h2 (show 0 ≤ 1 + t by linarith)
  have h5 := mul_le_mul_of_nonneg_left h3 (show 0 ≤ (1 + t) * k by positivity)
  have h6 := mul_le_mul_of_nonneg_right (show frm a' b' c' x (-y) ≤ (1 + t) * frm a (-b) c x y by linarith) t'.le
  have h7 := mul_le_mul_of_nonneg_right h4 t'.le
  linarith

lemma near_inv {a b c a' b' c' t : ℝ} (t0 : 0 ≤ t) (t1 : t < 1) (ha : 0 < a) (hd : 0 < a * c - b ^ 2)
    (h : ∀ x y, |frm a' b' c' x y - frm a b c x y| ≤ t * frm a b c x y) (x y : ℝ) :
    |frm (c' / (a' * c' - b' ^ 2)) (-b' / (a' * c' - b' ^ 2)) (a' / (a' * c' - b' ^ 2)) x y -
      frm (c / (a * c - b ^ 2)) (-b / (a * c - b ^ 2)) (a / (a * c - b ^ 2)) x y| ≤
      t / (1 - t) * frm (c / (a * c - b ^ 2)) (-b / (a * c - b ^ 2)) (a / (a * c - b ^ 2)) x y := by
  obtain ⟨h1, _, h3⟩ := near_pos t1 ha hd h
  have t' : 0 < 1 - t := by linarith
  have i1 := anti (k := 1 + t) h1 h3 hd (by linarith) (fun x y => by have := (abs_le.1 (h x y)).2; linarith) x y
  have i2 := anti (k := 1 / (1 - t)) ha hd h3 (by positivity) (fun x y => by
    have := (abs_le.1 (h x y)).1
    rw [div_mul_eq_mul_div, one_mul, le_div_iff₀ t']
    linarith) x y
  have p := frm_pos (a := c / (a * c - b ^ 2)) (b := -b / (a * c - b ^ 2)) (c := a / (a * c - b ^ 2))
    (div_pos (pos_c ha hd) hd) (by
      have e : c / (a * c - b ^ 2) * (a / (a * c - b ^ 2)) - (-b / (a * c - b ^ 2)) ^ 2 = 1 / (a * c - b ^ 2) := by
        have := hd.ne'
        generalize hD : a * c - b ^ 2 = D at *
        field_simp
        rw [← hD]; ring
      rw [e]; positivity) x y
  generalize frm (c / (a * c - b ^ 2)) (-b / (a * c - b ^ 2)) (a / (a * c - b ^ 2)) x y = Q at *
  generalize frm (c' / (a' * c' - b' ^ 2)) (-b' / (a' * c' - b' ^ 2)) (a' / (a' * c' - b' ^ 2)) x y = Q' at *
  have e : 1 / (1 - t) * Q = Q + t / (1 - t) * Q := by field_simp; ring
  have e2 : t * Q ≤ t / (1 - t) * Q := by
    apply mul_le_mul_of_nonneg_right _ p
    rw [le_div_iff₀ t']
    nlinarith
  rw [abs_le]
  refine ⟨?_, by linarith⟩
  have : (1 - t) * Q ≤ Q' := by
    have : (1 - t) * ((1 + t) * Q') ≤ Q' := by
      have : 0 ≤ Q' := nonneg_of_mul_nonneg_right (p.trans i1) (by linarith)
      nlinarith [mul_nonneg (sq_nonneg t) this]
    nlinarith
  linarith

lemma w22 : w1 ^ 22 - 1 ≤ 221 / 10 / 2 ^ 24 := by rw [w1]; norm_num

/-- The inverse of a covariance that was computed with 22 roundings of terms of sizes `Z`. -/
lemma shape_close (fma : Bool) (A : Mat) (hs : A.v12 = A.v21) {a b c Z1 Z2 Z3 K : ℝ} (hK : K ≤ 2 ^ 10) (ha : 0 < a)
    (hd : 0 < a * c - b ^ 2) (h1 : Ap (w1 ^ 22) A.v11 a Z1) (h2 : Ap (w1 ^ 22) A.v21 b Z2) (h3 : Ap (w1 ^ 22) A.v22 c Z3)
    (hZ : ∀ x y, Z1 * x ^ 2 + 2 * Z2 * |x| * |y| + Z3 * y ^ 2 ≤ K * frm a b c x y) :
    (∀ x y, frm a (-b) c x y ≤ K * frm a b c x y) ∧
    (invM fma A).v12 = (invM fma A).v21 ∧ 0 < (invM fma A).v11 ∧
    ∀ x y, |frm (invM fma A).v11 (invM fma A).v21 (invM fma A).v22 x y -
      frm (c / (a * c - b ^ 2)) (-b / (a * c - b ^ 2)) (a / (a * c - b ^ 2)) x y| ≤
      K / 2 ^ 19 * frm (c / (a * c - b ^ 2)) (-b / (a * c - b ^ 2)) (a / (a * c - b ^ 2)) x y := by
  have hJ : ∀ x y, frm a (-b) c x y ≤ K * frm a b c x y := by
    intro x y
    refine le_trans ?_ (hZ x y)
    have u1 := mul_le_mul_of_nonneg_right ((le_abs_self _).trans h1.2.2) (sq_nonneg x)
    have u3 := mul_le_mul_of_nonneg_right ((le_abs_self _).trans h3.2.2) (sq_nonneg y)
    have u2 := mul_le_mul_of_nonneg_right h2.2.2 (show 0 ≤ 2 * (|x| * |y|) by positivity)
    have u4 : 2 * -b * x * y ≤ |b| * (2 * (|x| * |y|)) := by
      have : |b| * (2 * (|x| * |y|)) = |2 * -b * x * y| := by
        rw [abs_mul, abs_mul, abs_mul, abs_neg, abs_of_pos (by norm_num : (0 : ℝ) < 2)]; ring
      rw [this]
      exact le_abs_self _
    rw [frm]
    linarith
  have K1 := one_le_k ha hJ
  have e0 : 0 ≤ w1 ^ 22 - 1 := sub_nonneg.2 h1.1
  have hn := near_of_size e0 h1.2.1 h2.2.1 h3.2.1 hZ
  have ht : (w1 ^ 22 - 1) * K ≤ 221 / 10 / 2 ^ 24 * K := mul_le_mul_of_nonneg_right w22 (by linarith)
  obtain ⟨t, hte⟩ : ∃ t, t = 221 / 10 / 2 ^ 24 * K := ⟨_, rfl⟩
  have t0 : 0 ≤ t := by rw [hte]; positivity
  have t1 : t ≤ 1 / 700 := by rw [hte]; linarith
  have hn' : ∀ x y, |frm A.v11 A.v21 A.v22 x y - frm a b c x y| ≤ t * frm a b c x y := fun x y =>
    (hn x y).trans (mul_le_mul_of_nonneg_right (ht.trans hte.ge) (frm_pos ha hd x y))
  obtain ⟨p1, _, p3⟩ := near_pos (by linarith) ha hd hn'
  have hf := near_flip t0 (by linarith) (by linarith) hn' hJ
  obtain ⟨k, hk⟩ : ∃ k, k = (1 + t) / (1 - t) * K := ⟨_, rfl⟩
  rw [← hk] at hf
  have hk2 : k ≤ 1003 / 1000 * K := by
    rw [hk]
    apply mul_le_mul_of_nonneg_right _ (by linarith)
    rw [div_le_iff₀ (by linarith)]
    linarith
  obtain ⟨q1, q2, q3⟩ := invM_form fma A hs k (by linarith) p1 p3 hf
  refine ⟨hJ, q1, q2, fun x y => ?_⟩
  have i1 := q3 x y
  have i2 := near_inv t0 (by linarith) ha hd hn' x y
  have p := frm_pos (a := c / (a * c - b ^ 2)) (b := -b / (a * c - b ^ 2)) (c := a / (a * c - b ^ 2))
    (div_pos (pos_c ha hd) hd) (by
      have e : c / (a * c - b ^ 2) * (a / (a * c - b ^ 2)) - (-b / (a * c - b ^ 2)) ^ 2 = 1 / (a * c - b ^ 2) := by
        have := hd.ne'
        generalize hD : a * c - b ^ 2 = D at *
        field_simp
        rw [← hD]; ring
      rw [e]; positivity) x y
  generalize frm (c / (a * c - b ^ 2)) (-b / (a * c - b ^ 2)) (a / (a * c - b ^ 2)) x y = Q at *
  generalize frm (A.v22 / (A.v11 * A.v22 - A.v21 ^ 2)) (-A.v21 / (A.v11 * A.v22 - A.v21 ^ 2))
    (A.v11 / (A.v11 * A.v22 - A.v21 ^ 2)) x y = Q' at *
  generalize frm (invM fma A).v11 (invM fma A).v21 (invM fma A).v22 x y = F at *
  have tt : t / (1 - t) * Q ≤ 1002 / 1000 * t * Q := by
    apply mul_le_mul_of_nonneg_right _ p
    rw [div_le_iff₀ (by linarith)]
    nlinarith
  have i2' := i2.trans tt
  have Q2 : Q' ≤ 101 / 100 * Q := by have := (abs_le.1 i2').2; nlinarith
  have k0 : 0 ≤ k := by rw [hk]; exact mul_nonneg (div_nonneg (by linarith) (by linarith)) (by linarith)
  have i1' : |F - Q'| ≤ 43 / 10 / 2 ^ 24 * (1003 / 1000 * K) * (101 / 100 * Q) := by
    refine i1.trans (mul_le_mul (mul_le_mul_of_nonneg_left hk2 (by positivity)) Q2 ?_ (by positivity))
    have := (abs_le.1 i2').1
    nlinarith
  have tr := abs_sub_le F Q' Q
  rw [hte] at i2'
  have := mul_nonneg (show 0 ≤ K by linarith) p
  linarith

/-! ## The covariance -/

lemma form_eq (a b c x y : ℝ) : form !![a, b; b, c] x y = frm a b c x y := by
  simp [form, frm, dotProduct, Matrix.mulVec, Fin.sum_univ_two]
  ring

/-- The entries of the true covariance. -/
lemma trueCov_eq (i : Parts) (t11 t12 t21 t22 : ℝ)
    (h11 : t11 = (i.D.v11 * Real.cos i.pa + i.D.v12 * Real.sin i.pa) * (1 / i.q) +
      (i.D.v11 * -Real.sin i.pa + i.D.v12 * Real.cos i.pa) * 0)
    (h12 : t12 = (i.D.v11 * Real.cos i.pa + i.D.v12 * Real.sin i.pa) * 0 +
      (i.D.v11 * -Real.sin i.pa + i.D.v12 * Real.cos i.pa) * i.q)
    (h21 : t21 = (i.D.v21 * Real.cos i.pa + i.D.v22 * Real.sin i.pa) * (1 / i.q) +
      (i.D.v21 * -Real.sin i.pa + i.D.v22 * Real.cos i.pa) * 0)
    (h22 : t22 = (i.D.v21 * Real.cos i.pa + i.D.v22 * Real.sin i.pa) * 0 +
      (i.D.v21 * -Real.sin i.pa + i.D.v22 * Real.cos i.pa) * i.q) :
    trueCov i = !![i.rad2 * (t11 * t11 + t12 * t12) + i.cxx, i.rad2 * (t11 * t21 + t12 * t22) + i.cxy;
      i.rad2 * (t11 * t21 + t12 * t22) + i.cxy, i.rad2 * (t21 * t21 + t22 * t22) + i.cyy] := by
  have hT : trueT i = !![t11, t12; t21, t22] := by
    rw [trueT, Mat.toMatrix, Matrix.mul_fin_two, Matrix.mul_fin_two, h11, h12, h21, h22]
  have htr : (!![t11, t12; t21, t22] : Matrix (Fin 2) (Fin 2) ℝ).transpose = !![t11, t21; t12, t22] := by
    ext r s
    fin_cases r <;> fin_cases s <;> rfl
  rw [trueCov, hT, htr, Matrix.mul_fin_two]
  ext r s
  fin_cases r <;> fin_cases s <;> simp <;> ring_nf <;> simp

/-- The entries of the matrix of sizes. -/
lemma sizeCov_eq (i : Parts) (t11 t12 t21 t22 : ℝ)
    (h11 : t11 = (|i.D.v11| * |Real.cos i.pa| + |i.D.v12| * |Real.sin i.pa|) * (1 / i.q) +
      (|i.D.v11| * |Real.sin i.pa| + |i.D.v12| * |Real.cos i.pa|) * 0)
    (h12 : t12 = (|i.D.v11| * |Real.cos i.pa| + |i.D.v12| * |Real.sin i.pa|) * 0 +
      (|i.D.v11| * |Real.sin i.pa| + |i.D.v12| * |Real.cos i.pa|) * i.q)
    (h21 : t21 = (|i.D.v21| * |Real.cos i.pa| + |i.D.v22| * |Real.sin i.pa|) * (1 / i.q) +
      (|i.D.v21| * |Real.sin i.pa| + |i.D.v22| * |Real.cos i.pa|) * 0)
    (h22 : t22 = (|i.D.v21| * |Real.cos i.pa| + |i.D.v22| * |Real.sin i.pa|) * 0 +
      (|i.D.v21| * |Real.sin i.pa| + |i.D.v22| * |Real.cos i.pa|) * i.q) :
    sizeCov i = !![i.rad2 * (t11 * t11 + t12 * t12) + |i.cxx|, i.rad2 * (t11 * t21 + t12 * t22) + |i.cxy|;
      i.rad2 * (t11 * t21 + t12 * t22) + |i.cxy|, i.rad2 * (t21 * t21 + t22 * t22) + |i.cyy|] := by
  have hT : sizeT i = !![t11, t12; t21, t22] := by
    rw [sizeT, Matrix.mul_fin_two, Matrix.mul_fin_two, h11, h12, h21, h22]
  have htr : (!![t11, t12; t21, t22] : Matrix (Fin 2) (Fin 2) ℝ).transpose = !![t11, t21; t12, t22] := by
    ext r s
    fin_cases r <;> fin_cases s <;> rfl
  rw [sizeCov, hT, htr, Matrix.mul_fin_two]
  ext r s
  fin_cases r <;> fin_cases s <;> simp <;> ring_nf <;> simp

lemma trig_ap (cs sn : ℝ → ℝ) (h : TrigOk cs sn) (x : ℝ) :
    Ap (w1 ^ 4) (cs x) (Real.cos x) |Real.cos x| ∧ Ap (w1 ^ 4) (sn x) (Real.sin x) |Real.sin x| := by
  obtain ⟨h1, h2⟩ := h x
  have hw : (1 : ℝ) / 2 ^ 22 ≤ w1 ^ 4 - 1 := by rw [w1]; norm_num
  have h0 : (1 : ℝ) ≤ w1 ^ 4 := one_le_pow₀ w1_ge
  refine ⟨⟨h0, h1.trans ?_, le_rfl⟩, ⟨h0, h2.trans ?_, le_rfl⟩⟩
  · have := mul_le_mul_of_nonneg_right hw (abs_nonneg (Real.cos x))
    linarith
  · have := mul_le_mul_of_nonneg_right hw (abs_nonneg (Real.sin x))
    linarith

/-- The computed covariance: 22 roundings of the terms of each entry. -/
lemma covM_ap (fma : Bool) (cs sn : ℝ → ℝ) (ht : TrigOk cs sn) (i : Parts) (hq : 0 < i.q) (hr : 0 ≤ i.rad2) :
    ∃ a b c Z1 Z2 Z3 : ℝ, trueCov i = !![a, b; b, c] ∧ sizeCov i = !![Z1, Z2; Z2, Z3] ∧
      (covM fma cs sn i).v12 = (covM fma cs sn i).v21 ∧
      Ap (w1 ^ 22) (covM fma cs sn i).v11 a Z1 ∧ Ap (w1 ^ 22) (covM fma cs sn i).v21 b Z2 ∧
      Ap (w1 ^ 22) (covM fma cs sn i).v22 c Z3 ∧
      a = i.rad2 * (trueT i 0 0 ^ 2 + trueT i 0 1 ^ 2) + i.cxx ∧
      a * c - b ^ 2 = i.rad2 ^ 2 * (trueT i 0 0 * trueT i 1 1 - trueT i 0 1 * trueT i 1 0) ^ 2 +
        i.rad2 * (i.cxx * trueT i 1 0 ^ 2 - 2 * i.cxy * trueT i 1 0 * trueT i 0 0 + i.cyy * trueT i 0 0 ^ 2) +
        i.rad2 * (i.cxx * trueT i 1 1 ^ 2 - 2 * i.cxy * trueT i 1 1 * trueT i 0 1 + i.cyy * trueT i 0 1 ^ 2) +
        (i.cxx * i.cyy - i.cxy ^ 2) := by
  have hT : trueT i = !![(i.D.v11 * Real.cos i.pa + i.D.v12 * Real.sin i.pa) * (1 / i.q) +
      (i.D.v11 * -Real.sin i.pa + i.D.v12 * Real.cos i.pa) * 0, (i.D.v11 * Real.cos i.pa + i.D.v12 * Real.sin i.pa) * 0 +
      (i.D.v11 * -Real.sin i.pa + i.D.v12 * Real.cos i.pa) * i.q;
      (i.D.v21 * Real.cos i.pa + i.D.v22 * Real.sin i.pa) * (1 / i.q) +
      (i.D.v21 * -Real.sin i.pa + i.D.v22 * Real.cos i.pa) * 0, (i.D.v21 * Real.cos i.pa + i.D.v22 * Real.sin i.pa) * 0 +
      (i.D.v21 * -Real.sin i.pa + i.D.v22 * Real.cos i.pa) * i.q] := by
    rw [trueT, Mat.toMatrix, Matrix.mul_fin_two, Matrix.mul_fin_two]
  refine ⟨_, _, _, _, _, _, trueCov_eq i _ _ _ _ rfl rfl rfl rfl, sizeCov_eq i _ _ _ _ rfl rfl rfl rfl, rfl, ?_, ?_, ?_, ?_, ?_⟩
  case refine_4 => rw [hT]; simp only [Matrix.of_apply, Matrix.cons_val', Matrix.cons_val_zero, Matrix.cons_val_one, Matrix.cons_val_fin_one]; ring
  case refine_5 => rw [hT]; simp only [Matrix.of_apply, Matrix.cons_val', Matrix.cons_val_zero, Matrix.cons_val_one, Matrix.cons_val_fin_one]; ring
  all_goals
    have hw := w1_ge
    have pow1 : ∀ n : Nat, (1 : ℝ) ≤ w1 ^ n := fun n => one_le_pow₀ hw
    obtain ⟨hc, hsn⟩ := trig_ap cs sn ht i.pa
    have hns := hsn.neg
    have q1 : Ap (w1 ^ 1) (fl 24 (1 / i.q)) (1 / i.q) (1 / i.q) := by
      have := (Ap.refl (1 / i.q)).fl
      rw [abs_of_pos (by positivity)] at this
      exact this.mono (le_of_eq (by rw [w1]; ring)) le_rfl
    have q2 : Ap (w1 ^ 1) i.q i.q i.q := by
      have := (Ap.refl i.q).mono (pow1 1) le_rfl
      rwa [abs_of_pos hq] at this
    have q0 : Ap (w1 ^ 1) (0 : ℝ) 0 0 := by
      have := (Ap.refl (0 : ℝ)).mono (pow1 1) le_rfl
      rwa [abs_zero] at this
    have m11 := Ap.av fma (Ap.refl i.D.v11) (Ap.refl i.D.v12) hc hsn
    have m12 := Ap.av fma (Ap.refl i.D.v11) (Ap.refl i.D.v12) hns hc
    have m21 := Ap.av fma (Ap.refl i.D.v21) (Ap.refl i.D.v22) hc hsn
    have m22 := Ap.av fma (Ap.refl i.D.v21) (Ap.refl i.D.v22) hns hc
    have t11 := (Ap.av fma m11 m12 q1 q0).mono (show _ ≤ w1 ^ 9 from le_of_eq (by ring)) le_rfl
    have t12 := (Ap.av fma m11 m12 q0 q2).mono (show _ ≤ w1 ^ 9 from le_of_eq (by ring)) le_rfl
    have t21 := (Ap.av fma m21 m22 q1 q0).mono (show _ ≤ w1 ^ 9 from le_of_eq (by ring)) le_rfl
    have t22 := (Ap.av fma m21 m22 q0 q2).mono (show _ ≤ w1 ^ 9 from le_of_eq (by ring)) le_rfl
    have r2 : Ap 1 i.rad2 i.rad2 i.rad2 := by
      have := Ap.refl i.rad2
      rwa [abs_of_nonneg hr] at this
  · have h := (r2.mul (Ap.av fma t11 t12 t11 t12)).fl
    have h := h.mono (show _ ≤ w1 ^ 21 from le_of_eq (by rw [w1]; ring)) le_rfl
    have h := (h.add ((Ap.refl i.cxx).mono (pow1 21) le_rfl)).fl
    exact h.mono (le_of_eq (by rw [w1]; ring)) le_rfl
  · have h := (r2.mul (Ap.av fma t11 t12 t21 t22)).fl
    have h := h.mono (show _ ≤ w1 ^ 21 from le_of_eq (by rw [w1]; ring)) le_rfl
    have h := (h.add ((Ap.refl i.cxy).mono (pow1 21) le_rfl)).fl
    exact h.mono (le_of_eq (by rw [w1]; ring)) le_rfl
  · have h := (r2.mul (Ap.av fma t21 t22 t21 t22)).fl
    have h := h.mono (show _ ≤ w1 ^ 21 from le_of_eq (by rw [w1]; ring)) le_rfl
    have h := (h.add ((Ap.refl i.cyy).mono (pow1 21) le_rfl)).fl
    exact h.mono (le_of_eq (by rw [w1]; ring)) le_rfl

lemma inv_eq (a b c : ℝ) : (!![a, b; b, c] : Matrix (Fin 2) (Fin 2) ℝ)⁻¹ =
    !![c / (a * c - b ^ 2), -b / (a * c - b ^ 2); -b / (a * c - b ^ 2), a / (a * c - b ^ 2)] := by
  rw [Matrix.inv_def, Matrix.det_fin_two_of, Matrix.adjugate_fin_two_of, Ring.inverse_eq_inv', ← sq]
  ext r s
  fin_cases r <;> fin_cases s <;> simp [div_eq_inv_mul]

/-- All that is needed about the shape. -/
lemma core (fma : Bool) (cs sn : ℝ → ℝ) (ht : TrigOk cs sn) (i : Parts) (hv : Valid i) (K : ℝ) (hK : K ≤ 2 ^ 10)
    (hc : Cond K i) :
    ∃ a b c : ℝ, trueCov i = !![a, b; b, c] ∧ 0 < a ∧ 0 < a * c - b ^ 2 ∧ 1 ≤ K ∧
      (∀ x y, frm a (-b) c x y ≤ K * frm a b c x y) ∧
      (invM fma (covM fma cs sn i)).v12 = (invM fma (covM fma cs sn i)).v21 ∧ 0 < (invM fma (covM fma cs sn i)).v11 ∧
      ∀ x y, |frm (invM fma (covM fma cs sn i)).v11 (invM fma (covM fma cs sn i)).v21 (invM fma (covM fma cs sn i)).v22 x y -
        frm (c / (a * c - b ^ 2)) (-b / (a * c - b ^ 2)) (a / (a * c - b ^ 2)) x y| ≤
        K / 2 ^ 19 * frm (c / (a * c - b ^ 2)) (-b / (a * c - b ^ 2)) (a / (a * c - b ^ 2)) x y := by
  obtain ⟨hq, hr, hx, hd⟩ := hv
  obtain ⟨a, b, c, Z1, Z2, Z3, e1, e2, hs, h1, h2, h3, ea, ed⟩ := covM_ap fma cs sn ht i hq hr
  have hd' : 0 < i.cxx * i.cyy - i.cxy ^ 2 := by linarith
  have ha : 0 < a := by rw [ea]; positivity
  have hdd : 0 < a * c - b ^ 2 := by
    rw [ed]
    have f1 := frm_pos (a := i.cyy) (b := -i.cxy) (c := i.cxx) (pos_c hx hd') (by rw [neg_sq]; linarith)
      (trueT i 0 0) (trueT i 1 0)
    have f2 := frm_pos (a := i.cyy) (b := -i.cxy) (c := i.cxx) (pos_c hx hd') (by rw [neg_sq]; linarith)
      (trueT i 0 1) (trueT i 1 1)
    rw [frm] at f1 f2
    have g1 := mul_nonneg hr f1
    have g2 := mul_nonneg hr f2
    have g3 := mul_nonneg (sq_nonneg i.rad2) (sq_nonneg (trueT i 0 0 * trueT i 1 1 - trueT i 0 1 * trueT i 1 0))
    linarith
  have hZ : ∀ x y, Z1 * x ^ 2 + 2 * Z2 * |x| * |y| + Z3 * y ^ 2 ≤ K * frm a b c x y := by
    intro x y
    have := hc x y
    rw [e1, e2, form_eq, form_eq, frm, sq_abs, sq_abs] at this
    exact this
  obtain ⟨hJ, r1, r2, r3⟩ := shape_close fma _ hs hK ha hdd h1 h2 h3 hZ
  exact ⟨a, b, c, e1, ha, hdd, one_le_k ha hJ, hJ, r1, r2, r3⟩

/-- C138 (shape): the shape of the gaussian in memory is that of the source, convolved with the PSF, to `K / 2^19` in
every direction. -/
theorem C138_shape (fma : Bool) (cs sn : ℝ → ℝ) (ht : TrigOk cs sn) (i : Parts) (hv : Valid i) (K : ℝ) (hK : K ≤ 2 ^ 10)
    (hc : Cond K i) (x y dx dy : ℝ) :
    |((buildGauss fma cs sn i x y).fxx * dx ^ 2 + 2 * (buildGauss fma cs sn i x y).fxy * dx * dy +
        (buildGauss fma cs sn i x y).fyy * dy ^ 2) - form (trueCov i)⁻¹ dx dy| ≤ K / 2 ^ 19 * form (trueCov i)⁻¹ dx dy ∧
    (buildGauss fma cs sn i x y).xcen = x ∧ (buildGauss fma cs sn i x y).ycen = y := by
  obtain ⟨a, b, c, e1, ha, hd, K1, hJ, h1, h2, h3⟩ := core fma cs sn ht i hv K hK hc
  refine ⟨?_, rfl, rfl⟩
  rw [e1, inv_eq, form_eq]
  exact h3 dx dy

lemma det_inv {a b c : ℝ} (hd : 0 < a * c - b ^ 2) :
    c / (a * c - b ^ 2) * (a / (a * c - b ^ 2)) - (-b / (a * c - b ^ 2)) ^ 2 = 1 / (a * c - b ^ 2) := by
  have := hd.ne'
  generalize hD : a * c - b ^ 2 = D at *
  field_simp
  rw [← hD]; ring

lemma ratio_num {K : ℝ} (K1 : 1 ≤ K) (hK : K ≤ 2 ^ 10) :
    (1 + K / 2 ^ 19) / (1 - K / 2 ^ 19) * K ≤ 1004 / 1000 * K := by
  apply mul_le_mul_of_nonneg_right _ (by linarith)
  rw [div_le_iff₀ (by linarith)]
  linarith

/-- The square root of the determinant of the inverse. -/
lemma sqrt_close (fma : Bool) (f : Mat) (hs : f.v12 = f.v21) {a b c K : ℝ} (K1 : 1 ≤ K) (hK : K ≤ 2 ^ 10)
    (ha : 0 < a) (hd : 0 < a * c - b ^ 2) (hJ : ∀ x y, frm a (-b) c x y ≤ K * frm a b c x y)
    (h : ∀ x y, |frm f.v11 f.v21 f.v22 x y - frm a b c x y| ≤ K / 2 ^ 19 * frm a b c x y) :
    |Real.sqrt (detM fma f) - Real.sqrt (a * c - b ^ 2)| ≤ 342 / 10 / 2 ^ 24 * K * Real.sqrt (a * c - b ^ 2) := by
  obtain ⟨m, hm⟩ : ∃ m, m = K / 2 ^ 19 := ⟨_, rfl⟩
  have m0 : 0 ≤ m := by rw [hm]; positivity
  have m1 : m ≤ 1 / 500 := by rw [hm]; linarith
  have hr := ratio_num K1 hK
  rw [← hm] at h hr
  obtain ⟨p1, p2, p3⟩ := near_pos (by linarith) ha hd h
  have p4 := near_det (by linarith) ha hd h
  have hf := near_flip m0 (by linarith) (by linarith) h hJ
  have hdet := detM_rel fma f hs _ p1 p3 hf
  obtain ⟨n, hn⟩ : ∃ n, n = 2109 / 1000 / 2 ^ 24 * K := ⟨_, rfl⟩
  have n0 : 0 ≤ n := by rw [hn]; positivity
  have n1 : n ≤ 1 / 500 := by rw [hn]; linarith
  have hdet' : |detM fma f - (f.v11 * f.v22 - f.v21 ^ 2)| ≤ n * (f.v11 * f.v22 - f.v21 ^ 2) := by
    refine hdet.trans (mul_le_mul_of_nonneg_right ?_ p3.le)
    rw [hn]
    linarith
  have hd1 := abs_le.1 hdet'
  obtain ⟨D, hD⟩ : ∃ D, D = a * c - b ^ 2 := ⟨_, rfl⟩
  obtain ⟨D', hD'⟩ : ∃ D', D' = f.v11 * f.v22 - f.v21 ^ 2 := ⟨_, rfl⟩
  rw [← hD] at hd p2 p4 ⊢
  rw [← hD'] at hd1 p2 p3 p4
  have s0 := Real.sqrt_nonneg D
  have ss := Real.sq_sqrt hd.le
  have up : Real.sqrt (detM fma f) ≤ (1 + n) * (1 + m) * Real.sqrt D := by
    rw [Real.sqrt_le_iff]
    refine ⟨by positivity, ?_⟩
    rw [mul_pow, ss]
    have v1 : detM fma f ≤ (1 + n) * D' := by linarith
    have v2 : (1 + n) * D' ≤ (1 + n) * ((1 + m) ^ 2 * D) := mul_le_mul_of_nonneg_left p4 (by linarith)
    have v3 : (1 + n) * ((1 + m) ^ 2 * D) ≤ (1 + n) ^ 2 * ((1 + m) ^ 2 * D) := by
      apply mul_le_mul_of_nonneg_right _ (by positivity)
      nlinarith
    refine (v1.trans (v2.trans v3)).trans (le_of_eq (by ring))
  have lo : (1 - n) * (1 - m) * Real.sqrt D ≤ Real.sqrt (detM fma f) := by
    apply Real.le_sqrt_of_sq_le
    rw [mul_pow, ss]
    have v1 : (1 - n) * D' ≤ detM fma f := by linarith
    have v2 : (1 - n) * ((1 - m) ^ 2 * D) ≤ (1 - n) * D' := mul_le_mul_of_nonneg_left p2 (by linarith)
    have v3 : (1 - n) ^ 2 * ((1 - m) ^ 2 * D) ≤ (1 - n) * ((1 - m) ^ 2 * D) := by
      apply mul_le_mul_of_nonneg_right _ (by positivity)
      nlinarith
    refine le_trans (le_of_eq (by ring)) (v3.trans (v2.trans v1))
  have nm : n + m + n * m ≤ 342 / 10 / 2 ^ 24 * K := by
    have : n * m ≤ n * (1 / 500) := mul_le_mul_of_nonneg_left m1 n0
    rw [hn, hm] at *
    linarith
  have e := mul_le_mul_of_nonneg_right nm s0
  rw [abs_le]
  constructor
  · have : 0 ≤ n * m * Real.sqrt D := by positivity
    linarith
  · linarith

lemma invTwoPi_ap : Ap (w1 ^ 3) invTwoPi (1 / (2 * Real.pi)) (1 / (2 * Real.pi)) := by
  have hp := Real.pi_pos
  have h1 : |fl 24 Real.pi - Real.pi| ≤ Real.pi / 2 ^ 24 := by
    have := fl_err 24 Real.pi
    rwa [abs_of_pos hp] at this
  have h2 := fl_err 24 (2 * fl 24 Real.pi)
  obtain ⟨P, hP⟩ : ∃ P, P = fl 24 (2 * fl 24 Real.pi) := ⟨_, rfl⟩
  rw [← hP] at h2
  have a1 := abs_le.1 h1
  have fp : 0 < fl 24 Real.pi := by linarith
  -- doubling is exact
  have hdb : P = 2 * fl 24 Real.pi := by
    rw [hP]
    obtain ⟨m, e, hm, he⟩ := fl_isRep 24 (by norm_num) Real.pi
    refine fl_rep 24 (by norm_num) _ ⟨m, e + 1, hm, ?_⟩
    rw [he, zpow_add_one₀ (by norm_num : (2 : ℝ) ≠ 0)]
    ring
  have P0 : 0 < P := by rw [hdb]; linarith
  have h3 : |1 / P - 1 / (2 * Real.pi)| ≤ (w1 ^ 2 - 1) * (1 / (2 * Real.pi)) := by
    have e : 1 / P - 1 / (2 * Real.pi) = (2 * Real.pi - P) / P * (1 / (2 * Real.pi)) := by field_simp
    rw [e, abs_mul, abs_of_pos (show 0 < 1 / (2 * Real.pi) by positivity)]
    apply mul_le_mul_of_nonneg_right _ (by positivity)
    rw [abs_div, abs_of_pos P0, div_le_iff₀ P0, hdb, ← mul_sub, abs_mul, abs_of_pos (by norm_num : (0 : ℝ) < 2), abs_sub_comm]
    have : (19 / 10) / 2 ^ 24 ≤ w1 ^ 2 - 1 := by rw [w1]; norm_num
    have := mul_le_mul_of_nonneg_right this (show 0 ≤ 2 * fl 24 Real.pi by linarith)
    nlinarith
  have h4 : Ap (w1 ^ 2) (1 / P) (1 / (2 * Real.pi)) (1 / (2 * Real.pi)) :=
    ⟨one_le_pow₀ w1_ge, h3, by rw [abs_of_pos (by positivity)]⟩
  rw [invTwoPi, ← hP]
  exact h4.fl.mono (le_of_eq (by rw [w1]; ring)) le_rfl

/-- C138 (amplitude): the amplitude in memory is right to `3 K / 2^20`. -/
theorem C138_amplitude (fma : Bool) (cs sn : ℝ → ℝ) (ht : TrigOk cs sn) (i : Parts) (hv : Valid i) (K : ℝ) (hK : K ≤ 2 ^ 10)
    (hc : Cond K i) (x y : ℝ) :
    |(buildGauss fma cs sn i x y).amp - trueAmp i| ≤ 3 * K / 2 ^ 20 * |trueAmp i| := by
  obtain ⟨a, b, c, e1, ha, hd, K1, hJ, h1, h2, h3⟩ := core fma cs sn ht i hv K hK hc
  have hsq := sqrt_close fma (invM fma (covM fma cs sn i)) h1 K1 hK (div_pos (pos_c ha hd) hd)
    (by rw [det_inv hd]; positivity) (anti_flip ha hd hJ) h3
  rw [det_inv hd] at hsq
  have hdet : (trueCov i).det = a * c - b ^ 2 := by rw [e1, Matrix.det_fin_two_of, sq]
  obtain ⟨D, hD⟩ : ∃ D, D = a * c - b ^ 2 := ⟨_, rfl⟩
  rw [← hD] at hsq hdet hd
  have sD : 0 < Real.sqrt D := Real.sqrt_pos.2 hd
  have hS : Real.sqrt (1 / D) = 1 / Real.sqrt D := by rw [Real.sqrt_div zero_le_one, Real.sqrt_one]
  rw [hS] at hsq
  have sp : 0 < 1 / Real.sqrt D := by positivity
  have A1 : Ap (1 + 342 / 10 / 2 ^ 24 * K) (Real.sqrt (detM fma (invM fma (covM fma cs sn i)))) (1 / Real.sqrt D)
      (1 / Real.sqrt D) := ⟨by nlinarith, hsq.trans (le_of_eq (by ring)), by rw [abs_of_pos sp]⟩
  have A2 := (Ap.mul (Ap.mul (Ap.mul (Ap.refl i.G) (Ap.refl i.pamp)).fl A1.fl).fl invTwoPi_ap).fl
  have A3 := ((A2.mul (Ap.refl i.flux)).fl.mul (Ap.refl i.samp)).fl
  have e2 : trueAmp i = i.G * i.pamp * (1 / Real.sqrt D) * (1 / (2 * Real.pi)) * i.flux * i.samp := by
    rw [trueAmp, hdet]
    have := Real.pi_pos
    field_simp
  have e3 : |i.G| * |i.pamp| * (1 / Real.sqrt D) * (1 / (2 * Real.pi)) * |i.flux| * |i.samp| = |trueAmp i| := by
    have := Real.pi_pos
    rw [e2, abs_mul, abs_mul, abs_mul, abs_mul, abs_mul, abs_of_pos sp, abs_of_pos (show 0 < 1 / (2 * Real.pi) by positivity)]
  rw [← e2, e3] at A3
  refine A3.2.1.trans (mul_le_mul_of_nonneg_right ?_ (abs_nonneg _))
  have e4 : ∀ z : ℝ, 1 * 1 * (1 + 1 / 2 ^ 24) * (z * (1 + 1 / 2 ^ 24)) * (1 + 1 / 2 ^ 24) * w1 ^ 3 * (1 + 1 / 2 ^ 24) * 1 *
      (1 + 1 / 2 ^ 24) * 1 * (1 + 1 / 2 ^ 24) = w1 ^ 9 * z := by intro z; rw [w1]; ring
  rw [e4]
  have w9 : w1 ^ 9 ≤ 1 + 91 / 10 / 2 ^ 24 := by rw [w1]; norm_num
  have := mul_le_mul_of_nonneg_right w9 (show 0 ≤ 1 + 342 / 10 / 2 ^ 24 * K by positivity)
  linarith

/-! ## Pixels -/

lemma exp_small2 (z : ℝ) (hz : z ≤ 1 / 21) (h0 : 0 ≤ z) : Real.exp z ≤ 1 + 21 / 20 * z := by
  have h1 : 1 - z ≤ Real.exp (-z) := by have := Real.add_one_le_exp (-z); linarith
  rw [Real.exp_neg] at h1
  have hp := Real.exp_pos z
  have h2 : (1 - z) * Real.exp z ≤ 1 := by
    have := mul_le_mul_of_nonneg_right h1 hp.le
    rwa [inv_mul_cancel₀ hp.ne'] at this
  have h3 : (1 - z) * (1 + 21 / 20 * z) ≥ 1 := by nlinarith
  by_contra hc
  push Not at hc
  nlinarith

/-- The error of a gaussian that is kept: `A` is the amplitude, `q` the exponent, `u` one rounding times `K`. -/
lemma kept_num2 (A q u rE H H' E E' : ℝ) (hA : 0 ≤ A) (hq : 0 ≤ q) (hu : 0 ≤ u) (hu1 : u ≤ 1 / 2 ^ 14)
    (hE : Ap rE E' E (A * Real.exp (-q / 2))) (hr : rE - 1 ≤ u * (54 + 22 * q)) (hH : |H| ≤ 4 / 3 + q / 3)
    (hH' : |H' - H| ≤ u * (27 + 473 / 10 * q)) :
    |E' * H' - E * H| ≤ 160 * u * A ∧ |E * H| ≤ A * Real.exp (-q / 2) * (4 / 3 + q / 3) := by
  have hp := Real.exp_pos (-q / 2)
  obtain ⟨h1, h2, h3⟩ := hE
  have P : 0 ≤ A * Real.exp (-q / 2) := by positivity
  obtain ⟨p, hpe⟩ : ∃ p, p = A * Real.exp (-q / 2) := ⟨_, rfl⟩
  have hH2 : |H'| ≤ 1336 / 1000 + 337 / 1000 * q := by
    have t := abs_add_le (H' - H) H
    rw [sub_add_cancel] at t
    have := mul_le_mul_of_nonneg_right hu1 (show 0 ≤ 27 + 473 / 10 * q by positivity)
    linarith
  have e : E' * H' - E * H = (E' - E) * H' + E * (H' - H) := by ring
  have b1 : |(E' - E) * H'| ≤ (u * (54 + 22 * q) * (A * Real.exp (-q / 2))) * (1336 / 1000 + 337 / 1000 * q) := by
    rw [abs_mul]
    exact mul_le_mul (h2.trans (mul_le_mul_of_nonneg_right hr P)) hH2 (abs_nonneg _) (by positivity)
  have b2 : |E * (H' - H)| ≤ A * Real.exp (-q / 2) * (u * (27 + 473 / 10 * q)) := by
    rw [abs_mul]
    exact mul_le_mul h3 hH' (abs_nonneg _) P
  refine ⟨?_, ?_⟩
  · rw [e]
    refine (abs_add_le _ _).trans ((add_le_add b1 b2).trans ?_)
    have hE : 1 + q / 2 + (q / 2) ^ 2 / 2 ≤ Real.exp (q / 2) := exp_sq _ (by positivity)
    have key : (54 + 22 * q) * (1336 / 1000 + 337 / 1000 * q) + (27 + 473 / 10 * q) ≤ 160 * Real.exp (q / 2) := by
      nlinarith [sq_nonneg (q - 1 / 2)]
    have inv : Real.exp (-q / 2) * Real.exp (q / 2) = 1 := by rw [← Real.exp_add]; norm_num; ring
    have k2 := mul_le_mul_of_nonneg_left key (show 0 ≤ u * A * Real.exp (-q / 2) by positivity)
    have e3 : u * A * Real.exp (-q / 2) * (160 * Real.exp (q / 2)) = 160 * u * A := by
      calc _ = 160 * u * A * (Real.exp (-q / 2) * Real.exp (q / 2)) := by ring
        _ = _ := by rw [inv]; ring
    rw [e3] at k2
    linarith
  · rw [abs_mul]
    exact mul_le_mul h3 hH (abs_nonneg _) P

/-- The correction for the extent of the pixel, for two close shapes. -/
lemma h_close {a b c a' b' c' m x y : ℝ} (m0 : 0 ≤ m) (m1 : m ≤ 1 / 500) (ha : 0 < a) (hd : 0 < a * c - b ^ 2) (htr : a + c ≤ 8)
    (h : ∀ x y, |frm a' b' c' x y - frm a b c x y| ≤ m * frm a b c x y) :
    |(1 + ((a' * x + b' * y) ^ 2 + (c' * y + b' * x) ^ 2 - a' - c') / 24) -
      (1 + ((a * x + b * y) ^ 2 + (c * y + b * x) ^ 2 - a - c) / 24)| ≤ m * (1 / 3 + 134 / 100 * frm a b c x y) ∧
    |1 + ((a * x + b * y) ^ 2 + (c * y + b * x) ^ 2 - a - c) / 24| ≤ 4 / 3 + frm a b c x y / 3 := by
  have hc := pos_c ha hd
  have hq := frm_pos ha hd x y
  have hn := h x y
  obtain ⟨p1, p2, p3⟩ := near_pos (by linarith) ha hd h
  have p4 := near_det (by linarith) ha hd h
  have ha' : |a' - a| ≤ m * a := by simpa [frm] using h 1 0
  have hc' : |c' - c| ≤ m * c := by simpa [frm] using h 0 1
  -- Cayley and Hamilton
  have cay : ∀ a b c : ℝ, (a * x + b * y) ^ 2 + (c * y + b * x) ^ 2 =
      (a + c) * frm a b c x y - (a * c - b ^ 2) * (x ^ 2 + y ^ 2) := by intro a b c; rw [frm]; ring
  have nn : 0 ≤ (a * x + b * y) ^ 2 + (c * y + b * x) ^ 2 := by positivity
  have c1 := cay a b c
  have c2 := cay a' b' c'
  rw [c1] at nn ⊢
  rw [c2]
  have r0 : 0 ≤ x ^ 2 + y ^ 2 := by positivity
  generalize frm a b c x y = Q at *
  generalize frm a' b' c' x y = Q' at *
  obtain ⟨T, hT⟩ : ∃ T, T = a + c := ⟨_, rfl⟩
  obtain ⟨T', hT'⟩ : ∃ T', T' = a' + c' := ⟨_, rfl⟩
  obtain ⟨D, hD⟩ : ∃ D, D = (a * c - b ^ 2) * (x ^ 2 + y ^ 2) := ⟨_, rfl⟩
  obtain ⟨D', hD'⟩ : ∃ D', D' = (a' * c' - b' ^ 2) * (x ^ 2 + y ^ 2) := ⟨_, rfl⟩
  have d1 : (1 - m) ^ 2 * D ≤ D' := by
    rw [hD, hD', ← mul_assoc]
    exact mul_le_mul_of_nonneg_right p2 r0
  have d2 : D' ≤ (1 + m) ^ 2 * D := by
    rw [hD, hD', ← mul_assoc]
    exact mul_le_mul_of_nonneg_right p4 r0
  have D0 : 0 ≤ D := by rw [hD]; exact mul_nonneg hd.le r0
  rw [← hT, ← hD] at nn
  have T0 : 0 < T := by rw [hT]; linarith
  have hTT : |T' - T| ≤ m * T := by
    have e : T' - T = (a' - a) + (c' - c) := by rw [hT, hT']; ring
    rw [e, hT]
    refine (abs_add_le _ _).trans ?_
    linarith
  have hA := abs_le.1 hTT
  have hB := abs_le.1 hn
  have TQ : T * Q ≤ 8 * Q := mul_le_mul_of_nonneg_right (by rw [hT]; exact htr) hq
  have TQ0 : 0 ≤ T * Q := by positivity
  have u1 : T' * Q' ≤ (1 + m) ^ 2 * (T * Q) := by
    have : T' * Q' ≤ ((1 + m) * T) * ((1 + m) * Q) :=
      mul_le_mul (by linarith) (by linarith) (by nlinarith) (by positivity)
    linarith
  have u2 : (1 - m) ^ 2 * (T * Q) ≤ T' * Q' := by
    have : ((1 - m) * T) * ((1 - m) * Q) ≤ T' * Q' :=
      mul_le_mul (by linarith) (by linarith) (mul_nonneg (by linarith) hq) (by nlinarith)
    linarith
  have mm : m ^ 2 ≤ 1 / 500 * m := by rw [sq]; exact mul_le_mul_of_nonneg_right m1 m0
  have mTQ : 0 ≤ m * (T * Q) := by positivity
  have mD : m * D ≤ m * (T * Q) := mul_le_mul_of_nonneg_left (by linarith) m0
  have mD0 : 0 ≤ m * D := by positivity
  have mT := mul_le_mul_of_nonneg_left TQ m0
  have mT8 : m * T ≤ m * 8 := mul_le_mul_of_nonneg_left (by rw [hT]; exact htr) m0
  have q1 : m ^ 2 * (T * Q) ≤ 1 / 500 * m * (T * Q) := mul_le_mul_of_nonneg_right mm TQ0
  have q2 : m ^ 2 * D ≤ 1 / 500 * m * D := mul_le_mul_of_nonneg_right mm D0
  have q3 : 0 ≤ m ^ 2 * D := by positivity
  have q4 : 0 ≤ m ^ 2 * (T * Q) := by positivity
  have e1 : a' + c' = T' := hT'.symm
  have f1 : (1 + ((a' + c') * Q' - (a' * c' - b' ^ 2) * (x ^ 2 + y ^ 2) - a' - c') / 24) = 1 + (T' * Q' - D' - T') / 24 := by
    rw [hD', hT']; ring
  have f2 : (1 + ((a + c) * Q - (a * c - b ^ 2) * (x ^ 2 + y ^ 2) - a - c) / 24) = 1 + (T * Q - D - T) / 24 := by
    rw [hD, hT]; ring
  rw [f1, f2]
  clear f1 f2 e1 hD hD' hT' c1 c2 cay p2 p4 h
  refine ⟨?_, ?_⟩
  · rw [abs_le]
    constructor <;> linarith
  · have : T ≤ 8 := by rw [hT]; exact htr
    rw [abs_le]
    constructor <;> linarith

lemma w6 : w1 ^ 6 - 1 ≤ 61 / 10 / 2 ^ 24 := by rw [w1]; norm_num

lemma w12 : w1 ^ 12 - 1 ≤ 121 / 10 / 2 ^ 24 := by rw [w1]; norm_num

/-- What is computed in a pixel from the gaussian in memory, against a gaussian of a close shape. -/
lemma factors_close (fma : Bool) (g : Gauss) (xp yp : ℝ) {a b c K : ℝ} (K1 : 1 ≤ K) (hK : K ≤ 2 ^ 10)
    (ha : 0 < a) (hd : 0 < a * c - b ^ 2) (htr : a + c ≤ 8) (hJ : ∀ x y, frm a (-b) c x y ≤ K * frm a b c x y)
    (h : ∀ x y, |frm g.fxx g.fxy g.fyy x y - frm a b c x y| ≤ K / 2 ^ 19 * frm a b c x y) :
    |expArg fma g xp yp - frm a b c (xp - g.xcen) (yp - g.ycen)| ≤
      40 / 2 ^ 24 * K * frm a b c (xp - g.xcen) (yp - g.ycen) ∧
    |hFactor fma g xp yp - (1 + ((a * (xp - g.xcen) + b * (yp - g.ycen)) ^ 2 +
        (c * (yp - g.ycen) + b * (xp - g.xcen)) ^ 2 - a - c) / 24)| ≤
      K / 2 ^ 24 * (27 + 473 / 10 * frm a b c (xp - g.xcen) (yp - g.ycen)) := by
  have he := (expArg_ap fma g xp yp).2.1
  have hh := (hFactor_ap fma g xp yp).2.1
  have hr := ratio_num K1 hK
  obtain ⟨m, hm⟩ : ∃ m, m = K / 2 ^ 19 := ⟨_, rfl⟩
  have m0 : 0 ≤ m := by rw [hm]; positivity
  have m1 : m ≤ 1 / 500 := by rw [hm]; linarith
  rw [← hm] at h hr
  obtain ⟨p1, p2, p3⟩ := near_pos (by linarith) ha hd h
  have pc := pos_c p1 p3
  have hf := near_flip m0 (by linarith) (by linarith) h hJ
  have k1 := one_le_k p1 hf
  have hsz := size_le k1 p1 p3 hf (xp - g.xcen) (yp - g.ycen)
  have hq := frm_pos ha hd (xp - g.xcen) (yp - g.ycen)
  have hq' := frm_pos p1 p3 (xp - g.xcen) (yp - g.ycen)
  have hn := h (xp - g.xcen) (yp - g.ycen)
  have hcl := (h_close (x := xp - g.xcen) (y := yp - g.ycen) m0 m1 ha hd htr h).1
  have ha' : |g.fxx - a| ≤ m * a := by simpa [frm] using h 1 0
  have hc' : |g.fyy - c| ≤ m * c := by simpa [frm] using h 0 1
  have hquad : quad g (xp - g.xcen) (yp - g.ycen) = frm g.fxx g.fxy g.fyy (xp - g.xcen) (yp - g.ycen) := rfl
  rw [hquad] at he
  generalize xp - g.xcen = x at *
  generalize yp - g.ycen = y at *
  have hS : sizeQ g x y = g.fxx * x ^ 2 + 2 * |g.fxy| * |x| * |y| + g.fyy * y ^ 2 := by
    rw [sizeQ, abs_of_pos p1, abs_of_pos pc, ← sq_abs x, ← sq_abs y]; ring
  rw [← hS] at hsz
  have hSH : sizeH g x y ≤ 1 + (g.fxx + g.fyy) * (sizeQ g x y + 1) / 24 := by
    have e : (|g.fxx| * |x| + |g.fxy| * |y|) ^ 2 + (|g.fyy| * |y| + |g.fxy| * |x|) ^ 2 =
        (g.fxx + g.fyy) * sizeQ g x y - (g.fxx * g.fyy - g.fxy ^ 2) * (x ^ 2 + y ^ 2) := by
      rw [hS, abs_of_pos p1, abs_of_pos pc, ← sq_abs x, ← sq_abs y, ← sq_abs g.fxy]; ring
    rw [sizeH, e, abs_of_pos p1, abs_of_pos pc]
    have := mul_nonneg p3.le (show 0 ≤ x ^ 2 + y ^ 2 by positivity)
    linarith
  generalize frm a b c x y = Q at *
  generalize frm g.fxx g.fxy g.fyy x y = Q' at *
  have hb := abs_le.1 hn
  have Q2 : Q' ≤ 1002 / 1000 * Q := by nlinarith
  have KQ : 0 ≤ K * Q := by positivity
  have S1 : sizeQ g x y ≤ 1007 / 1000 * (K * Q) := by
    refine hsz.trans ((mul_le_mul hr Q2 hq' (by linarith)).trans ?_)
    linarith
  have S0 : 0 ≤ sizeQ g x y := (expArg_ap fma ⟨g.amp, 0, 0, g.fxx, g.fyy, g.fxy⟩ x y).size.trans (by simp [sizeQ])
  refine ⟨?_, ?_⟩
  · have t := abs_sub_le (expArg fma g xp yp) Q' Q
    have e1 := mul_le_mul w6 S1 S0 (by norm_num)
    rw [hm] at hn
    linarith
  · have t := abs_sub_le (hFactor fma g xp yp) (1 + ((g.fxx * x + g.fxy * y) ^ 2 + (g.fyy * y + g.fxy * x) ^ 2
        - g.fxx - g.fyy) / 24) (1 + ((a * x + b * y) ^ 2 + (c * y + b * x) ^ 2 - a - c) / 24)
    have T1 : g.fxx + g.fyy ≤ 802 / 100 := by
      have u1 := (abs_le.1 ha').2
      have u2 := (abs_le.1 hc').2
      have c0 := pos_c ha hd
      nlinarith
    have s1 : (g.fxx + g.fyy) * (sizeQ g x y + 1) ≤ 802 / 100 * (1007 / 1000 * (K * Q) + 1) :=
      mul_le_mul T1 (by linarith) (by linarith) (by norm_num)
    have SH0 : 0 ≤ sizeH g x y := by rw [sizeH]; positivity
    have s2 : sizeH g x y ≤ 1335 / 1000 + 337 / 1000 * (K * Q) := by linarith
    have s3 := mul_le_mul w12 s2 SH0 (by norm_num)
    rw [hm] at hcl
    have e : K / 2 ^ 24 * (27 + 473 / 10 * Q) = 27 / 2 ^ 24 * K + 473 / 10 / 2 ^ 24 * (K * Q) := by ring
    have e2 : K / 2 ^ 19 * (1 / 3 + 134 / 100 * Q) = 32 / 3 / 2 ^ 24 * K + 4288 / 100 / 2 ^ 24 * (K * Q) := by ring
    rw [e]
    rw [e2] at hcl
    linarith

lemma trueValue_eq (i : Parts) (a b c x y : ℝ) (h : (trueCov i)⁻¹ = !![a, b; b, c]) :
    trueValue i x y = trueAmp i * Real.exp (-frm a b c x y / 2) *
      (1 + ((a * x + b * y) ^ 2 + (c * y + b * x) ^ 2 - a - c) / 24) := by
  rw [trueValue, h, form_eq]
  congr 3
  simp [dotProduct, Matrix.mulVec, Fin.sum_univ_two, Matrix.trace]
  ring

/-- C138 (pixels): what is subtracted from a pixel for a gaussian built in single precision is the true gaussian, with
the centre in memory, up to `K / 2^16` of its amplitude. -/
theorem C138_pixel (fma : Bool) (cs sn : ℝ → ℝ) (ht : TrigOk cs sn) (ex : ℝ → ℝ) (hex : ExpOk ex) (i : Parts) (hv : Valid i)
    (K : ℝ) (hK : K ≤ 2 ^ 10) (hc : Cond K i) (htr : (trueCov i)⁻¹.trace ≤ 8) (x y xp yp r : ℝ) :
    ∃ C, |C - trueValue i (xp - x) (yp - y)| ≤ K / 2 ^ 16 * |trueAmp i| ∧
      (subOne fma ex xp yp r (buildGauss fma cs sn i x y) = fl 24 (r - C) ∨
        C = 0 ∧ subOne fma ex xp yp r (buildGauss fma cs sn i x y) = r) := by
  obtain ⟨a₀, b₀, c₀, e1, ha₀, hd₀, K1, hJ₀, h1, h2, h3⟩ := core fma cs sn ht i hv K hK hc
  have hamp := C138_amplitude fma cs sn ht i hv K hK hc x y
  have einv := inv_eq a₀ b₀ c₀
  rw [← e1] at einv
  have hJ := anti_flip ha₀ hd₀ hJ₀
  have ha := div_pos (pos_c ha₀ hd₀) hd₀
  have hd : 0 < c₀ / (a₀ * c₀ - b₀ ^ 2) * (a₀ / (a₀ * c₀ - b₀ ^ 2)) - (-b₀ / (a₀ * c₀ - b₀ ^ 2)) ^ 2 := by
    rw [det_inv hd₀]; positivity
  generalize c₀ / (a₀ * c₀ - b₀ ^ 2) = a at *
  generalize -b₀ / (a₀ * c₀ - b₀ ^ 2) = b at *
  generalize a₀ / (a₀ * c₀ - b₀ ^ 2) = c at *
  have htr' : a + c ≤ 8 := by
    rw [einv] at htr
    simpa [Matrix.trace, Fin.sum_univ_two] using htr
  rw [trueValue_eq i a b c _ _ einv]
  obtain ⟨g, hg⟩ : ∃ g, g = buildGauss fma cs sn i x y := ⟨_, rfl⟩
  have gx : g.xcen = x := by rw [hg]; rfl
  have gy : g.ycen = y := by rw [hg]; rfl
  have h3' : ∀ x y, |frm g.fxx g.fxy g.fyy x y - frm a b c x y| ≤ K / 2 ^ 19 * frm a b c x y := by rw [hg]; exact h3
  obtain ⟨f1, f2⟩ := factors_close fma g xp yp K1 hK ha hd htr' hJ h3'
  rw [gx, gy] at f1 f2
  have hHb := (h_close (x := xp - x) (y := yp - y) (m := K / 2 ^ 19) (by positivity) (by linarith) ha hd htr' h3').2
  have hq := frm_pos ha hd (xp - x) (yp - y)
  rw [← hg] at hamp ⊢
  generalize frm a b c (xp - x) (yp - y) = q at *
  generalize (1 + ((a * (xp - x) + b * (yp - y)) ^ 2 + (c * (yp - y) + b * (xp - x)) ^ 2 - a - c) / 24) = H at *
  generalize trueAmp i = A at *
  have A0 := abs_nonneg A
  obtain ⟨u, hu⟩ : ∃ u, u = K / 2 ^ 24 := ⟨_, rfl⟩
  have u0 : 0 ≤ u := by rw [hu]; positivity
  have u1 : u ≤ 1 / 2 ^ 14 := by rw [hu]; linarith
  have uu : 1 / 2 ^ 24 ≤ u := by rw [hu]; linarith
  have f1' : |expArg fma g xp yp - q| ≤ 40 * u * q := by
    refine f1.trans (le_of_eq ?_)
    rw [hu]; ring
  have fb := abs_le.1 f1'
  have uq : u * q ≤ 1 / 2 ^ 14 * q := mul_le_mul_of_nonneg_right u1 hq
  have goalK : K / 2 ^ 16 * |A| = 256 * u * |A| := by rw [hu]; ring
  rw [goalK]
  rw [subOne]
  by_cases hk : 36 < expArg fma g xp yp
  · rw [if_pos hk]
    refine ⟨0, ?_, .inr ⟨rfl, rfl⟩⟩
    have hQ : 359 / 10 ≤ q := by linarith
    have hs := skipped_num |A| q |H| A0 hQ (by linarith)
    rw [zero_sub, abs_neg, abs_mul, abs_mul, abs_of_pos (Real.exp_pos _)]
    refine hs.trans ?_
    have := mul_le_mul_of_nonneg_right uu A0
    linarith
  · rw [if_neg hk]
    push Not at hk
    have hQ : q ≤ 37 := by linarith
    have hQ0 : 0 ≤ expArg fma g xp yp := by linarith
    have hE := exp_ap _ _ _ (1 / 2 ^ 22) _ f1' (by norm_num) (hex _ (by linarith) (by linarith))
    have hA : Ap (1 + 48 * u) g.amp A |A| := ⟨by linarith, hamp.trans (le_of_eq (by rw [hu]; ring)), le_rfl⟩
    have hG := (hA.mul hE).fl
    have e : gFactor fma ex g xp yp = fl 24 (g.amp * ex (-(1 / 2) * expArg fma g xp yp)) := by
      rw [gFactor, half_exact]
    rw [← e] at hG
    have hz := exp_small2 (40 * u * q / 2) (by linarith) (by positivity)
    have hr : (1 + 48 * u) * ((1 + 1 / 2 ^ 22) * Real.exp (40 * u * q / 2)) * (1 + 1 / 2 ^ 24) - 1 ≤ u * (54 + 22 * q) := by
      have uq0 : 0 ≤ u * q := by positivity
      have v1 : (1 + 1 / 2 ^ 22 : ℝ) * (1 + 1 / 2 ^ 24) ≤ 1 + 51 / 10 * u := by linarith
      have v2 : (1 + 48 * u) * (1 + 51 / 10 * u) ≤ 1 + 534 / 10 * u := by nlinarith
      have v3 : (1 + 48 * u) * ((1 + 1 / 2 ^ 22) * (1 + 1 / 2 ^ 24)) ≤ 1 + 534 / 10 * u :=
        (mul_le_mul_of_nonneg_left v1 (by positivity)).trans v2
      have v4 := mul_le_mul v3 hz (Real.exp_pos _).le (by positivity)
      have v5 : u * (u * q) ≤ 1 / 2 ^ 14 * (u * q) := mul_le_mul_of_nonneg_right u1 uq0
      have e5 : (1 + 48 * u) * ((1 + 1 / 2 ^ 22) * Real.exp (40 * u * q / 2)) * (1 + 1 / 2 ^ 24) =
          (1 + 48 * u) * ((1 + 1 / 2 ^ 22) * (1 + 1 / 2 ^ 24)) * Real.exp (40 * u * q / 2) := by ring
      rw [e5]
      refine (sub_le_sub_right v4 1).trans ?_
      nlinarith
    have f2' : |hFactor fma g xp yp - H| ≤ u * (27 + 473 / 10 * q) := by rw [hu]; exact f2
    obtain ⟨n1, n2⟩ := kept_num2 |A| q u _ H _ _ _ A0 hq u0 u1 hG hr hHb f2'
    by_cases hf : fma = true
    · rw [if_pos hf]
      refine ⟨_, n1.trans ?_, .inl rfl⟩
      have := mul_nonneg u0 A0
      linarith
    · rw [if_neg hf]
      refine ⟨_, ?_, .inl rfl⟩
      have n3 : |A * Real.exp (-q / 2) * H| ≤ 2 * |A| := by
        refine n2.trans ?_
        have hE : q / 2 + 1 ≤ Real.exp (q / 2) := Real.add_one_le_exp _
        have inv : Real.exp (-q / 2) * Real.exp (q / 2) = 1 := by rw [← Real.exp_add]; norm_num; ring
        have : Real.exp (-q / 2) * (4 / 3 + q / 3) ≤ 2 := by
          have := mul_le_mul_of_nonneg_left hE (Real.exp_pos (-q / 2)).le
          rw [inv] at this
          have hp := Real.exp_pos (-q / 2)
          nlinarith
        have := mul_le_mul_of_nonneg_left this A0
        linarith
      have fe := fl_err 24 (gFactor fma ex g xp yp * hFactor fma g xp yp)
      have t := abs_sub_le (fl 24 (gFactor fma ex g xp yp * hFactor fma g xp yp))
        (gFactor fma ex g xp yp * hFactor fma g xp yp) (A * Real.exp (-q / 2) * H)
      have t2 := abs_add_le (gFactor fma ex g xp yp * hFactor fma g xp yp - A * Real.exp (-q / 2) * H)
        (A * Real.exp (-q / 2) * H)
      rw [sub_add_cancel] at t2
      have uA := mul_le_mul_of_nonneg_right u1 A0
      have uA2 := mul_le_mul_of_nonneg_right uu A0
      have uA0 := mul_nonneg u0 A0
      linarith

/-! ## All the gaussians of a pixel -/

/-- Any gaussians, each right to its own tolerance. -/
lemma residual_general {α : Type} (fma : Bool) (ex : ℝ → ℝ) (b : α → Gauss) (V E : α → ℝ) (xp yp : ℝ) (gs : List α)
    (h : ∀ g ∈ gs, ∀ r, ∃ C, |C - V g| ≤ E g ∧
      (subOne fma ex xp yp r (b g) = fl 24 (r - C) ∨ C = 0 ∧ subOne fma ex xp yp r (b g) = r)) (data : ℝ) :
    |residual fma ex (gs.map b) xp yp data - (data - (gs.map V).sum)| ≤
      (gs.map E).sum + ((1 + 1 / 2 ^ 24) ^ gs.length - 1) * (|data| + (gs.map fun g => |V g| + E g).sum) := by
  have key : ∀ (gs : List α) (_ : ∀ g ∈ gs, ∀ r, ∃ C, |C - V g| ≤ E g ∧
      (subOne fma ex xp yp r (b g) = fl 24 (r - C) ∨ C = 0 ∧ subOne fma ex xp yp r (b g) = r)) (k : Nat) (r e W : ℝ),
      Ap (w1 ^ k) r e W →
      ∃ T Z, Ap (w1 ^ (k + gs.length)) (residual fma ex (gs.map b) xp yp r) (e - T) (W + Z) ∧
        |T - (gs.map V).sum| ≤ (gs.map E).sum ∧ Z ≤ (gs.map fun g => |V g| + E g).sum := by
    intro gs
    induction gs with
    | nil =>
      intro _ k r e W hr
      refine ⟨0, 0, ?_, by simp, by simp⟩
      simpa [residual] using hr
    | cons g gs ih =>
      intro ho k r e W hr
      obtain ⟨C, hC, hs⟩ := ho g (by simp) r
      have hw := w1_ge
      have hstep : Ap (w1 ^ (k + 1)) (subOne fma ex xp yp r (b g)) (e - C) (W + |C|) := by
        rcases hs with hs | ⟨hC0, hs⟩
        · rw [hs]
          exact ((hr.sub ((Ap.refl C).mono (one_le_pow₀ hw) le_rfl)).fl).mono (le_of_eq (by rw [w1]; ring)) le_rfl
        · rw [hs, hC0]
          refine (show Ap (w1 ^ k) r (e - 0) (W + |0|) by simpa using hr).mono (pow_le_pow_right₀ hw (by omega)) le_rfl
      obtain ⟨T, Z, h1, h2, h3⟩ := ih (fun x hx => ho x (by simp [hx])) (k + 1) _ _ _ hstep
      refine ⟨C + T, |C| + Z, ?_, ?_, ?_⟩
      · have e1 : e - (C + T) = e - C - T := by ring
        have e2 : W + (|C| + Z) = W + |C| + Z := by ring
        rw [e1, e2, List.length_cons, show k + (gs.length + 1) = k + 1 + gs.length by omega]
        exact h1
      · rw [List.map_cons, List.sum_cons, List.map_cons, List.sum_cons]
        exact add_close hC h2
      · rw [List.map_cons, List.sum_cons]
        refine add_le_add ?_ h3
        have := abs_add_le (C - V g) (V g)
        rw [sub_add_cancel] at this
        linarith
  obtain ⟨T, Z, h1, h2, h3⟩ := key gs h 0 data data |data| (by simpa using Ap.refl data)
  rw [zero_add] at h1
  have h4 := h1.2.1
  have hw : (0 : ℝ) ≤ w1 ^ gs.length - 1 := sub_nonneg.2 h1.1
  have h5 : (w1 ^ gs.length - 1) * (|data| + Z) ≤ (w1 ^ gs.length - 1) * (|data| + (gs.map fun g => |V g| + E g).sum) :=
    mul_le_mul_of_nonneg_left (by linarith) hw
  have t := abs_add_le (residual fma ex (gs.map b) xp yp data - (data - T)) ((gs.map V).sum - T)
  rw [abs_sub_comm _ T] at t
  rw [← w1]
  refine (le_of_eq ?_).trans (t.trans (by linarith))
  congr 1
  ring

/-- C138 (residual): after all the gaussians of all the sources the residual of a pixel is the data less the true
gaussians, up to `K / 2^16` of the amplitudes and one rounding of the sum per gaussian.  `gs` lists parts and centres. -/
theorem C138_residual (fma : Bool) (cs sn : ℝ → ℝ) (ht : TrigOk cs sn) (ex : ℝ → ℝ) (hex : ExpOk ex) (K : ℝ) (hK : K ≤ 2 ^ 10)
    (gs : List (Parts × ℝ × ℝ)) (h : ∀ g ∈ gs, Valid g.1 ∧ Cond K g.1 ∧ (trueCov g.1)⁻¹.trace ≤ 8) (xp yp data : ℝ) :
    |residual fma ex (gs.map fun g => buildGauss fma cs sn g.1 g.2.1 g.2.2) xp yp data -
        (data - (gs.map fun g => trueValue g.1 (xp - g.2.1) (yp - g.2.2)).sum)| ≤
      (gs.map fun g => K / 2 ^ 16 * |trueAmp g.1|).sum + ((1 + 1 / 2 ^ 24) ^ gs.length - 1) *
        (|data| + (gs.map fun g => |trueValue g.1 (xp - g.2.1) (yp - g.2.2)| + K / 2 ^ 16 * |trueAmp g.1|).sum) := by
  have hp : ∀ g ∈ gs, ∀ r, ∃ C, |C - trueValue g.1 (xp - g.2.1) (yp - g.2.2)| ≤ K / 2 ^ 16 * |trueAmp g.1| ∧
      (subOne fma ex xp yp r (buildGauss fma cs sn g.1 g.2.1 g.2.2) = fl 24 (r - C) ∨
        C = 0 ∧ subOne fma ex xp yp r (buildGauss fma cs sn g.1 g.2.1 g.2.2) = r) := by
    intro g hg r
    obtain ⟨h1, h2, h3⟩ := h g hg
    exact C138_pixel fma cs sn ht ex hex g.1 h1 K hK h2 h3 g.2.1 g.2.2 xp yp r
  generalize hb : (fun g : Parts × ℝ × ℝ => buildGauss fma cs sn g.1 g.2.1 g.2.2) = b
  generalize hV : (fun g : Parts × ℝ × ℝ => trueValue g.1 (xp - g.2.1) (yp - g.2.2)) = V
  have hp' : ∀ g ∈ gs, ∀ r, ∃ C, |C - V g| ≤ K / 2 ^ 16 * |trueAmp g.1| ∧
      (subOne fma ex xp yp r (b g) = fl 24 (r - C) ∨ C = 0 ∧ subOne fma ex xp yp r (b g) = r) := by
    rw [← hb, ← hV]
    exact hp
  have hV' : ∀ g : Parts × ℝ × ℝ, trueValue g.1 (xp - g.2.1) (yp - g.2.2) = V g := fun g => by rw [← hV]
  simp only [hV']
  exact residual_general fma ex b V _ xp yp gs hp' data

/-! ## How much cancels -/

lemma unit_le {a b c s : ℝ} (h1 : a ^ 2 + b ^ 2 = 1) (h2 : c ^ 2 + s ^ 2 = 1) : |a| * |c| + |b| * |s| ≤ 1 := by
  have e1 := sq_abs a
  have e2 := sq_abs b
  have e3 := sq_abs c
  have e4 := sq_abs s
  nlinarith [sq_nonneg (|a| - |c|), sq_nonneg (|b| - |s|)]

lemma row_le {a b c t s : ℝ} (hs : 0 < s) (h1 : a ^ 2 + b ^ 2 = s ^ 2) (h2 : c ^ 2 + t ^ 2 = 1) : |a| * |c| + |b| * |t| ≤ s := by
  have := unit_le (a := a / s) (b := b / s) (c := c) (s := t) (by field_simp; linarith) h2
  rw [abs_div, abs_div, abs_of_pos hs] at this
  have := mul_le_mul_of_nonneg_right this hs.le
  have e : (|a| / s * |c| + |b| / s * |t|) * s = |a| * |c| + |b| * |t| := by field_simp
  linarith

/-- The size of the part of the source. -/
lemma square_size {d11 d12 d21 d22 q C S s : ℝ} (x y : ℝ) (hq : 0 < q) (hs : 0 < s) (cs : C ^ 2 + S ^ 2 = 1)
    (r1 : d11 ^ 2 + d12 ^ 2 = s ^ 2) (r2 : d21 ^ 2 + d22 ^ 2 = s ^ 2) :
    ((|d11| * |C| + |d12| * |S|) / q * |x| + (|d21| * |C| + |d22| * |S|) / q * |y|) ^ 2 +
      ((|d11| * |S| + |d12| * |C|) * q * |x| + (|d21| * |S| + |d22| * |C|) * q * |y|) ^ 2 ≤
      (1 / q ^ 2 + q ^ 2) * (s ^ 2 * (2 * (x ^ 2 + y ^ 2))) := by
  have sc : S ^ 2 + C ^ 2 = 1 := by linarith
  have b11 := row_le hs r1 cs
  have b12 := row_le hs r1 sc
  have b21 := row_le hs r2 cs
  have b22 := row_le hs r2 sc
  have n11 : 0 ≤ |d11| * |C| + |d12| * |S| := by positivity
  have n12 : 0 ≤ |d11| * |S| + |d12| * |C| := by positivity
  have n21 : 0 ≤ |d21| * |C| + |d22| * |S| := by positivity
  have n22 : 0 ≤ |d21| * |S| + |d22| * |C| := by positivity
  have k1 : (|d11| * |C| + |d12| * |S|) / q * |x| + (|d21| * |C| + |d22| * |S|) / q * |y| ≤ s / q * (|x| + |y|) := by
    rw [mul_add]; gcongr
  have k2 : (|d11| * |S| + |d12| * |C|) * q * |x| + (|d21| * |S| + |d22| * |C|) * q * |y| ≤ s * q * (|x| + |y|) := by
    rw [mul_add]; gcongr
  have k3 := pow_le_pow_left₀ (by positivity) k1 2
  have k4 := pow_le_pow_left₀ (by positivity) k2 2
  have k5 : (|x| + |y|) ^ 2 ≤ 2 * (x ^ 2 + y ^ 2) := by
    rw [← sq_abs x, ← sq_abs y]; nlinarith [sq_nonneg (|x| - |y|)]
  have e1 : (s / q * (|x| + |y|)) ^ 2 + (s * q * (|x| + |y|)) ^ 2 = (1 / q ^ 2 + q ^ 2) * (s ^ 2 * (|x| + |y|) ^ 2) := by
    field_simp
  have k6 : (1 / q ^ 2 + q ^ 2) * (s ^ 2 * (|x| + |y|) ^ 2) ≤ (1 / q ^ 2 + q ^ 2) * (s ^ 2 * (2 * (x ^ 2 + y ^ 2))) := by
    gcongr
  linarith

/-- The part of the source is at least its shortest axis. -/
lemma square_low {d11 d12 d21 d22 q C S s : ℝ} (x y : ℝ) (hq : 0 < q) (hq1 : q ≤ 1) (cs : C ^ 2 + S ^ 2 = 1)
    (r1 : d11 ^ 2 + d12 ^ 2 = s ^ 2) (r2 : d21 ^ 2 + d22 ^ 2 = s ^ 2) (r3 : d11 * d21 + d12 * d22 = 0) :
    q ^ 2 * (s ^ 2 * (x ^ 2 + y ^ 2)) ≤
      ((d11 * C + d12 * S) / q * x + (d21 * C + d22 * S) / q * y) ^ 2 +
      ((-d11 * S + d12 * C) * q * x + (-d21 * S + d22 * C) * q * y) ^ 2 := by
  obtain ⟨X, hX⟩ : ∃ X, X = d11 * x + d21 * y := ⟨_, rfl⟩
  obtain ⟨Y, hY⟩ : ∃ Y, Y = d12 * x + d22 * y := ⟨_, rfl⟩
  have eXY : X ^ 2 + Y ^ 2 = s ^ 2 * (x ^ 2 + y ^ 2) := by
    rw [hX, hY]
    linear_combination x ^ 2 * r1 + y ^ 2 * r2 + 2 * x * y * r3
  have e1 : (d11 * C + d12 * S) / q * x + (d21 * C + d22 * S) / q * y = (C * X + S * Y) / q := by
    rw [hX, hY]; ring
  have e2 : (-d11 * S + d12 * C) * q * x + (-d21 * S + d22 * C) * q * y = (-S * X + C * Y) * q := by
    rw [hX, hY]; ring
  rw [e1, e2, ← eXY]
  have e3 : X ^ 2 + Y ^ 2 = (C * X + S * Y) ^ 2 + (-S * X + C * Y) ^ 2 := by
    linear_combination (-(X ^ 2 + Y ^ 2)) * cs
  rw [e3, div_pow, mul_pow]
  have q2 : q ^ 2 ≤ 1 := by nlinarith
  have q4 : q ^ 2 * (C * X + S * Y) ^ 2 ≤ (C * X + S * Y) ^ 2 / q ^ 2 := by
    rw [le_div_iff₀ (by positivity)]
    have : q ^ 2 * q ^ 2 ≤ 1 := by nlinarith [sq_nonneg q]
    nlinarith [sq_nonneg (C * X + S * Y)]
  linarith

/-- C138 (ordinary sources): where the pixels are square, so that the matrix of the exposure is a scale times a rotation
or reflection, the condition holds with `2 / q^4 + 2`, `q` the square root of the axis ratio, or the number for the PSF
gaussian alone if that is larger: it is at most 81 for all `q` from 0.4 to 1. -/
theorem C138_square_pixels (i : Parts) (hv : Valid i) (s : ℝ) (hq1 : i.q ≤ 1)
    (r1 : i.D.v11 ^ 2 + i.D.v12 ^ 2 = s ^ 2) (r2 : i.D.v21 ^ 2 + i.D.v22 ^ 2 = s ^ 2)
    (r3 : i.D.v11 * i.D.v21 + i.D.v12 * i.D.v22 = 0) (hs : 0 < s) (K : ℝ) (hK : 2 / i.q ^ 4 + 2 ≤ K)
    (hP : ∀ x y : ℝ, i.cxx * x ^ 2 + 2 * |i.cxy| * |x| * |y| + i.cyy * y ^ 2 ≤
      K * (i.cxx * x ^ 2 + 2 * i.cxy * x * y + i.cyy * y ^ 2)) : Cond K i := by
  obtain ⟨hq, hr, hx, hd⟩ := hv
  intro x y
  have hy : 0 < i.cyy := pos_c (b := i.cxy) hx (by linarith)
  have cs := Real.cos_sq_add_sin_sq i.pa
  rw [trueCov_eq i _ _ _ _ rfl rfl rfl rfl, sizeCov_eq i _ _ _ _ rfl rfl rfl rfl, form_eq, form_eq]
  have hPx := hP x y
  rw [abs_of_pos hx, abs_of_pos hy]
  generalize Real.cos i.pa = C at *
  generalize Real.sin i.pa = S at *
  obtain ⟨⟨d11, d12, d21, d22⟩, q, pa, R, cxx, cxy, cyy, G, pamp, flux, samp⟩ := i
  dsimp only at *
  have hsz := square_size (q := q) x y hq hs cs r1 r2
  have hlo := square_low (q := q) x y hq hq1 cs r1 r2 r3
  have hkey : (1 / q ^ 2 + q ^ 2) * (s ^ 2 * (2 * (x ^ 2 + y ^ 2))) ≤ K * (q ^ 2 * (s ^ 2 * (x ^ 2 + y ^ 2))) := by
    have e : (1 / q ^ 2 + q ^ 2) * (s ^ 2 * (2 * (x ^ 2 + y ^ 2))) = (2 / q ^ 4 + 2) * (q ^ 2 * (s ^ 2 * (x ^ 2 + y ^ 2))) := by
      field_simp
    rw [e]
    gcongr
  have K0 : 0 ≤ K := le_trans (by positivity) hK
  have hall := mul_le_mul_of_nonneg_left (hsz.trans (hkey.trans (mul_le_mul_of_nonneg_left hlo K0))) hr
  rw [frm, frm, sq_abs, sq_abs]
  have e1 : ∀ a b c d X Y : ℝ, R * ((a * (1 / q) + b * 0) * (a * (1 / q) + b * 0) + (a * 0 + b * q) * (a * 0 + b * q)) * X ^ 2 +
      2 * (R * ((a * (1 / q) + b * 0) * (c * (1 / q) + d * 0) + (a * 0 + b * q) * (c * 0 + d * q))) * X * Y +
      R * ((c * (1 / q) + d * 0) * (c * (1 / q) + d * 0) + (c * 0 + d * q) * (c * 0 + d * q)) * Y ^ 2 =
      R * ((a / q * X + c / q * Y) ^ 2 + (b * q * X + d * q * Y) ^ 2) := by
    intro a b c d X Y; ring
  have g1 := e1 (|d11| * |C| + |d12| * |S|) (|d11| * |S| + |d12| * |C|) (|d21| * |C| + |d22| * |S|)
    (|d21| * |S| + |d22| * |C|) |x| |y|
  have g2 := e1 (d11 * C + d12 * S) (d11 * -S + d12 * C) (d21 * C + d22 * S) (d21 * -S + d22 * C) x y
  have g3 : d11 * -S + d12 * C = -d11 * S + d12 * C := by ring
  have g4 : d21 * -S + d22 * C = -d21 * S + d22 * C := by ring
  rw [g3, g4] at g2
  rw [sq_abs, sq_abs] at g1
  rw [g3, g4]
  have hfin : R * (((|d11| * |C| + |d12| * |S|) / q * |x| + (|d21| * |C| + |d22| * |S|) / q * |y|) ^ 2 +
      ((|d11| * |S| + |d12| * |C|) * q * |x| + (|d21| * |S| + |d22| * |C|) * q * |y|) ^ 2) +
      (cxx * x ^ 2 + 2 * |cxy| * |x| * |y| + cyy * y ^ 2) ≤
      K * (R * (((d11 * C + d12 * S) / q * x + (d21 * C + d22 * S) / q * y) ^ 2 +
        ((-d11 * S + d12 * C) * q * x + (-d21 * S + d22 * C) * q * y) ^ 2) +
        (cxx * x ^ 2 + 2 * cxy * x * y + cyy * y ^ 2)) := by
    linarith
  refine le_trans (le_of_eq ?_) (hfin.trans (le_of_eq ?_))
  · linarith
  · congr 1
    linarith

/-- C138 (width): the gaussian is at least as wide as that of the PSF, so the condition on its width in `C138_pixel`
holds if it holds for the PSF gaussian. -/
theorem C138_width (i : Parts) (hv : Valid i) : (trueCov i)⁻¹.trace ≤ (i.cxx + i.cyy) / (i.cxx * i.cyy - i.cxy ^ 2) := by
  obtain ⟨hq, hr, hx, hd⟩ := hv
  rw [trueCov_eq i _ _ _ _ rfl rfl rfl rfl, inv_eq]
  generalize (i.D.v11 * Real.cos i.pa + i.D.v12 * Real.sin i.pa) * (1 / i.q) +
      (i.D.v11 * -Real.sin i.pa + i.D.v12 * Real.cos i.pa) * 0 = t11
  generalize (i.D.v11 * Real.cos i.pa + i.D.v12 * Real.sin i.pa) * 0 +
      (i.D.v11 * -Real.sin i.pa + i.D.v12 * Real.cos i.pa) * i.q = t12
  generalize (i.D.v21 * Real.cos i.pa + i.D.v22 * Real.sin i.pa) * (1 / i.q) +
      (i.D.v21 * -Real.sin i.pa + i.D.v22 * Real.cos i.pa) * 0 = t21
  generalize (i.D.v21 * Real.cos i.pa + i.D.v22 * Real.sin i.pa) * 0 +
      (i.D.v21 * -Real.sin i.pa + i.D.v22 * Real.cos i.pa) * i.q = t22
  have hd' : 0 < i.cxx * i.cyy - i.cxy ^ 2 := by linarith
  have hle : ∀ x y, frm i.cxx i.cxy i.cyy x y ≤ 1 * frm (i.rad2 * (t11 * t11 + t12 * t12) + i.cxx)
      (i.rad2 * (t11 * t21 + t12 * t22) + i.cxy) (i.rad2 * (t21 * t21 + t22 * t22) + i.cyy) x y := by
    intro x y
    have e : frm (i.rad2 * (t11 * t11 + t12 * t12) + i.cxx) (i.rad2 * (t11 * t21 + t12 * t22) + i.cxy)
        (i.rad2 * (t21 * t21 + t22 * t22) + i.cyy) x y = frm i.cxx i.cxy i.cyy x y +
        i.rad2 * ((t11 * x + t21 * y) ^ 2 + (t12 * x + t22 * y) ^ 2) := by rw [frm, frm]; ring
    rw [e]
    have : 0 ≤ i.rad2 * ((t11 * x + t21 * y) ^ 2 + (t12 * x + t22 * y) ^ 2) := by positivity
    linarith
  have hdd := det_mono hx hd' hle
  have h := anti hx hd' (by linarith) one_pos hle
  rw [Matrix.trace_fin_two_of, add_div i.cxx]
  clear hle
  generalize i.rad2 * (t11 * t11 + t12 * t12) + i.cxx = a at *
  generalize i.rad2 * (t11 * t21 + t12 * t22) + i.cxy = b at *
  generalize i.rad2 * (t21 * t21 + t22 * t22) + i.cyy = c at *
  have h1 := h 1 0
  have h2 := h 0 1
  simp only [frm] at h1 h2
  generalize a * c - b ^ 2 = D at *
  generalize i.cxx * i.cyy - i.cxy ^ 2 = P at *
  linarith

/-! ## Limits -/

/-- A source with an axis ratio of 1/4096, on square pixels turned by 45 degrees. -/
noncomputable def edgeOn : Parts := ⟨⟨32, 32, 32, -32⟩, 1 / 64, 0, 4, 1, 0, 1, 1, 1, 1, 1⟩

lemma av_lit (fma : Bool) (a b v w x : ℝ) (n₁ e₁ n₂ e₂ n e : ℤ) (h1 : a * v = n₁ * 2 ^ e₁) (hn1 : |n₁| ≤ 2 ^ 24)
    (h2 : b * w = n₂ * 2 ^ e₂) (hn2 : |n₂| ≤ 2 ^ 24) (hx : a * v + b * w = x) (h : x = n * 2 ^ e) (hn : |n| ≤ 2 ^ 24) :
    av fma a b v w = x := by
  rw [av, fl_lit _ n₁ e₁ hn1 h1, fl_lit _ n₂ e₂ hn2 h2, hx, fl_lit _ n e hn h, ite_self]

/-- A number half way between two others is rounded to the even one. -/
lemma fl_tie (x : ℝ) (k n : ℤ) (hn1 : 2 ^ 22 ≤ n) (hn2 : n < 2 ^ 23) (hx : x = (2 * n + 1 / 2) * 2 ^ k) :
    fl 24 x = 2 * n * 2 ^ k := by
  have p : (0 : ℝ) < 2 ^ k := by positivity
  have h1 : ((2 : ℝ) ^ 22) ≤ n := by exact_mod_cast hn1
  have h2 : (n : ℝ) + 1 ≤ 2 ^ 23 := by exact_mod_cast hn2
  have x0 : 0 < x := by rw [hx]; exact mul_pos (by linarith) p
  have hlog : Int.log 2 |x| = k + 23 := by
    rw [abs_of_pos x0]
    apply le_antisymm
    · have := (Int.lt_zpow_iff_log_lt (b := 2) (x := k + 24) (r := x) (by norm_num) x0).mp (by
        push_cast
        rw [hx, zpow_add₀ (by norm_num : (2 : ℝ) ≠ 0), mul_comm ((2 : ℝ) ^ k)]
        apply mul_lt_mul_of_pos_right _ p
        norm_num
        linarith)
      omega
    · exact (Int.zpow_le_iff_le_log (b := 2) (x := k + 23) (r := x) (by norm_num) x0).mp (by
        push_cast
        rw [hx, zpow_add₀ (by norm_num : (2 : ℝ) ≠ 0), mul_comm ((2 : ℝ) ^ k)]
        apply mul_le_mul_of_nonneg_right _ p.le
        norm_num
        linarith)
  have hu : ulp 24 x = 2 ^ k := by
    rw [ulp, hlog]
    congr 1
    push_cast
    ring
  rw [fl, if_neg x0.ne', hu]
  have e : x / 2 ^ k = ((2 * n : ℤ) : ℝ) + 1 / 2 := by rw [hx]; push_cast; field_simp
  have hr : roundEven (((2 * n : ℤ) : ℝ) + 1 / 2) = 2 * n := by
    have hfl : ⌊((2 * n : ℤ) : ℝ) + 1 / 2⌋ = 2 * n := by
      rw [Int.floor_intCast_add]
      norm_num
    have hfr : Int.fract (((2 * n : ℤ) : ℝ) + 1 / 2) = 1 / 2 := by
      rw [Int.fract, hfl]; ring
    rw [roundEven, hfr, hfl]
    simp
  rw [e, hr]
  push_cast
  ring

lemma edgeOn_cov (fma : Bool) : covM fma Real.cos Real.sin edgeOn = ⟨2 ^ 24, 2 ^ 24 - 1, 2 ^ 24 - 1, 2 ^ 24⟩ := by
  have hR : rotM Real.cos Real.sin 0 = ⟨1, 0, 0, 1⟩ := by simp [rotM]
  have hS : scaleM (1 / 64) = ⟨64, 0, 0, 1 / 64⟩ := by
    rw [scaleM, fl_lit _ 64 0 (by norm_num) (by norm_num)]
    norm_num
  have hM : mulM fma ⟨32, 32, 32, -32⟩ ⟨1, 0, 0, 1⟩ = ⟨32, 32, 32, -32⟩ := by
    rw [mulM]
    dsimp only
    rw [av_lit fma 32 32 1 0 32 32 0 0 0 32 0 (by norm_num) (by norm_num) (by norm_num) (by norm_num) (by norm_num) (by norm_num) (by norm_num),
      av_lit fma 32 32 0 1 32 0 0 32 0 32 0 (by norm_num) (by norm_num) (by norm_num) (by norm_num) (by norm_num) (by norm_num) (by norm_num),
      av_lit fma 32 (-32) 1 0 32 32 0 0 0 32 0 (by norm_num) (by norm_num) (by norm_num) (by norm_num) (by norm_num) (by norm_num) (by norm_num),
      av_lit fma 32 (-32) 0 1 (-32) 0 0 (-32) 0 (-32) 0 (by norm_num) (by norm_num) (by norm_num) (by norm_num) (by norm_num) (by norm_num) (by norm_num)]
  have hT : mulM fma ⟨32, 32, 32, -32⟩ ⟨64, 0, 0, 1 / 64⟩ = ⟨2048, 1 / 2, 2048, -1 / 2⟩ := by
    rw [mulM]
    dsimp only
    rw [av_lit fma 32 32 64 0 2048 2048 0 0 0 2048 0 (by norm_num) (by norm_num) (by norm_num) (by norm_num) (by norm_num) (by norm_num) (by norm_num),
      av_lit fma 32 32 0 (1 / 64) (1 / 2) 0 0 1 (-1) 1 (-1) (by norm_num) (by norm_num) (by norm_num) (by norm_num) (by norm_num) (by norm_num) (by norm_num),
      av_lit fma 32 (-32) 64 0 2048 2048 0 0 0 2048 0 (by norm_num) (by norm_num) (by norm_num) (by norm_num) (by norm_num) (by norm_num) (by norm_num),
      av_lit fma 32 (-32) 0 (1 / 64) (-1 / 2) 0 0 (-1) (-1) (-1) (-1) (by norm_num) (by norm_num) (by norm_num) (by norm_num) (by norm_num) (by norm_num) (by norm_num)]
  have t1 : fl 24 (2 ^ 22 + 1 / 4 : ℝ) = 2 ^ 22 := by
    rw [fl_tie _ (-1) (2 ^ 22) (by norm_num) (by norm_num) (by norm_num)]; norm_num
  have t2 : fl 24 (2 ^ 24 + 1 : ℝ) = 2 ^ 24 := by
    rw [fl_tie _ 1 (2 ^ 22) (by norm_num) (by norm_num) (by norm_num)]; norm_num
  have l1 : fl 24 (2 ^ 22 : ℝ) = 2 ^ 22 := fl_lit _ 1 22 (by norm_num) (by norm_num)
  have l2 : fl 24 (1 / 4 : ℝ) = 1 / 4 := fl_lit _ 1 (-2) (by norm_num) (by norm_num)
  have a1 : av fma 2048 (1 / 2) 2048 (1 / 2) = 2 ^ 22 := by
    rw [av, show (2048 * 2048 : ℝ) = 2 ^ 22 by norm_num, show (1 / 2 * (1 / 2) : ℝ) = 1 / 4 by norm_num, l1, l2, t1, ite_self]
  have a2 : av fma 2048 (-1 / 2) 2048 (-1 / 2) = 2 ^ 22 := by
    rw [av, show (2048 * 2048 : ℝ) = 2 ^ 22 by norm_num, show (-1 / 2 * (-1 / 2) : ℝ) = 1 / 4 by norm_num, l1, l2, t1, ite_self]
  have a3 : av fma 2048 (1 / 2) 2048 (-1 / 2) = 2 ^ 22 - 1 / 4 :=
    av_lit fma _ _ _ _ _ 1 22 (-1) (-2) (2 ^ 24 - 1) (-2) (by norm_num) (by norm_num) (by norm_num) (by norm_num) (by norm_num)
      (by norm_num) (by norm_num)
  have hA : aat fma ⟨2048, 1 / 2, 2048, -1 / 2⟩ = ⟨2 ^ 22, 2 ^ 22 - 1 / 4, 2 ^ 22 - 1 / 4, 2 ^ 22⟩ := by
    rw [aat]
    dsimp only
    rw [a1, a2, a3]
  have hsm : smulM 4 ⟨2 ^ 22, 2 ^ 22 - 1 / 4, 2 ^ 22 - 1 / 4, 2 ^ 22⟩ = ⟨2 ^ 24, 2 ^ 24 - 1, 2 ^ 24 - 1, 2 ^ 24⟩ := by
    rw [smulM]
    dsimp only
    rw [fl_lit (4 * 2 ^ 22) 1 24 (by norm_num) (by norm_num), fl_lit (4 * (2 ^ 22 - 1 / 4)) (2 ^ 24 - 1) 0 (by norm_num) (by norm_num)]
    norm_num
  rw [covM, tM, edgeOn]
  dsimp only
  rw [hR, hS, hM, hT, hA, hsm, addM]
  dsimp only
  rw [t2, add_zero, fl_lit (2 ^ 24 - 1) (2 ^ 24 - 1) 0 (by norm_num) (by norm_num)]

/-- C138 (limits): without a bound on the axis ratio the claim fails: here all numbers in memory and sine and cosine are
exact, pixels are square, the covariance is positive definite, and along the short axis the exponent is three times what
it should be. -/
theorem C138_elongated_refuted (fma : Bool) : TrigOk Real.cos Real.sin ∧ Valid edgeOn ∧ edgeOn.q = 1 / 64 ∧
    (edgeOn.D.v11 ^ 2 + edgeOn.D.v12 ^ 2 = edgeOn.D.v21 ^ 2 + edgeOn.D.v22 ^ 2 ∧
      edgeOn.D.v11 * edgeOn.D.v21 + edgeOn.D.v12 * edgeOn.D.v22 = 0) ∧
    quad (buildGauss fma Real.cos Real.sin edgeOn 0 0) 1 (-1) = 2 - 1 / 2 ^ 24 ∧
    form (trueCov edgeOn)⁻¹ 1 (-1) = 2 / 3 := by
  refine ⟨fun x => by simp; exact ⟨by positivity, by positivity⟩, by norm_num [Valid, edgeOn], rfl, by norm_num [edgeOn], ?_, ?_⟩
  · have hdet : detM fma ⟨2 ^ 24, 2 ^ 24 - 1, 2 ^ 24 - 1, 2 ^ 24⟩ = 2 ^ 25 := by
      have l1 : fl 24 ((2 ^ 24 - 1) * (2 ^ 24 - 1) : ℝ) = 2 ^ 48 - 2 ^ 25 := by
        rw [fl_of 24 _ 47 (2 ^ 24 - 2) (by norm_num) (by norm_num) (by norm_num [abs_lt])]
        norm_num
      have l2 : fl 24 (2 ^ 24 * 2 ^ 24 : ℝ) = 2 ^ 48 := by
        rw [fl_lit (2 ^ 24 * 2 ^ 24) 1 48 (by norm_num) (by norm_num)]; norm_num
      have l3 : fl 24 (2 ^ 48 - (2 ^ 48 - 2 ^ 25) : ℝ) = 2 ^ 25 := by
        rw [show (2 ^ 48 - (2 ^ 48 - 2 ^ 25) : ℝ) = 2 ^ 25 by norm_num]
        exact fl_lit _ 1 25 (by norm_num) (by norm_num)
      rw [detM]
      dsimp only
      rw [l1, l2, show (2 ^ 24 * 2 ^ 24 : ℝ) = 2 ^ 48 by norm_num, l3, ite_self]
    have i1 : fl 24 (1 / 2 ^ 25 : ℝ) = 1 / 2 ^ 25 := fl_lit _ 1 (-25) (by norm_num) (by norm_num)
    have i2 : fl 24 (2 ^ 24 * (1 / 2 ^ 25) : ℝ) = 1 / 2 := by
      rw [fl_lit _ 1 (-1) (by norm_num) (by norm_num)]; norm_num
    have i3 : fl 24 (-(2 ^ 24 - 1) * (1 / 2 ^ 25) : ℝ) = -(1 / 2 - 1 / 2 ^ 25) := by
      rw [fl_lit _ (-(2 ^ 24 - 1)) (-25) (by norm_num) (by norm_num)]; norm_num
    have hinv : invM fma (covM fma Real.cos Real.sin edgeOn) = ⟨1 / 2, -(1 / 2 - 1 / 2 ^ 25), -(1 / 2 - 1 / 2 ^ 25), 1 / 2⟩ := by
      rw [edgeOn_cov, invM, hdet]
      dsimp only
      rw [i1, i2, i3]
    rw [quad, buildGauss, hinv]
    norm_num
  · rw [trueCov_eq edgeOn _ _ _ _ rfl rfl rfl rfl, inv_eq, form_eq, frm]
    norm_num [edgeOn]

/-- C138 (two compilations): the determinant of a singular matrix is zero without fusing and the rounding error of one
product with it. -/
theorem C138_fused : detM false ⟨1 + 3 / 2 ^ 13, 1 + 3 / 2 ^ 13, 1 + 3 / 2 ^ 13, 1 + 3 / 2 ^ 13⟩ = 0 ∧
    detM true ⟨1 + 3 / 2 ^ 13, 1 + 3 / 2 ^ 13, 1 + 3 / 2 ^ 13, 1 + 3 / 2 ^ 13⟩ = 1 / 2 ^ 26 := by
  rw [detM, detM, if_neg (by simp), if_pos rfl]
  dsimp only
  rw [fl_square.1]
  refine ⟨by rw [sub_self, fl, if_pos rfl], ?_⟩
  rw [show ((1 + 3 / 2 ^ 13) * (1 + 3 / 2 ^ 13) - (1 + 3 / 2 ^ 12 + 1 / 2 ^ 23) : ℝ) = 1 / 2 ^ 26 by norm_num]
  exact fl_lit _ 1 (-26) (by norm_num) (by norm_num)

/-- A source on square pixels, with a PSF gaussian that is not round. -/
noncomputable def inclined : Parts := ⟨⟨24, 32, -32, 24⟩, 1 / 2, 1, 1 / 16, 1, 1 / 2, 1, 2, 3 / 4, 5, 1 / 4⟩

/-- The hypotheses of C138 are met by `inclined`, with `K = 34`; in every pixel the contribution is right to half a
per mille of the amplitude. -/
theorem C138_witness (fma : Bool) (x y xp yp r : ℝ) : TrigOk Real.cos Real.sin ∧ ExpOk Real.exp ∧ Valid inclined ∧
    Cond 34 inclined ∧ (trueCov inclined)⁻¹.trace ≤ 8 ∧
    ∃ C, |C - trueValue inclined (xp - x) (yp - y)| ≤ 34 / 2 ^ 16 * |trueAmp inclined| ∧
      (subOne fma Real.exp xp yp r (buildGauss fma Real.cos Real.sin inclined x y) = fl 24 (r - C) ∨
        C = 0 ∧ subOne fma Real.exp xp yp r (buildGauss fma Real.cos Real.sin inclined x y) = r) := by
  have h1 : TrigOk Real.cos Real.sin := fun x => by simp; exact ⟨by positivity, by positivity⟩
  have h2 : ExpOk Real.exp := by
    intro x _ _
    rw [sub_self, abs_zero]
    positivity
  have h3 : Valid inclined := by norm_num [Valid, inclined]
  have h4 : Cond 34 inclined := by
    refine C138_square_pixels inclined h3 40 (by norm_num [inclined]) (by norm_num [inclined]) (by norm_num [inclined])
      (by norm_num [inclined]) (by norm_num) 34 (by norm_num [inclined]) ?_
    intro x y
    norm_num [inclined]
    have e1 : |x| * |y| ≤ (x ^ 2 + y ^ 2) / 2 := by
      rw [← sq_abs x, ← sq_abs y]; nlinarith [sq_nonneg (|x| - |y|)]
    have e2 : -(|x| * |y|) ≤ x * y := by rw [← abs_mul]; exact neg_abs_le _
    nlinarith
  have h5 : (trueCov inclined)⁻¹.trace ≤ 8 := (C138_width inclined h3).trans (by norm_num [inclined])
  exact ⟨h1, h2, h3, h4, h5, C138_pixel fma _ _ h1 _ h2 inclined h3 34 (by norm_num) h4 h5 x y xp yp r⟩

end Forcepho.Float

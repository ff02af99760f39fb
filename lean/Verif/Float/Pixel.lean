import Verif.Float.Position
import Mathlib.Analysis.Complex.ExponentialBounds
import Mathlib.Analysis.SpecialFunctions.Exp
import Mathlib.Tactic.GCongr

/-! # Pixel values in single precision

The value of one pixel as the compiled kernel computes it (common_kernel.cc:57-83), every operation rounded to 24 bits,
against the formula it stands for, over the reals.  The numbers in the gaussian and the coordinates of the pixel are
taken as they are in memory.  `fma` says whether a product and a sum are fused, as compilers may do; in `a*b + c*d` the
first product is then the one that is not rounded.  The exponential of the library is a parameter. -/

set_option autoImplicit false

namespace Forcepho.Float

/-- The part of an image gaussian that enters the value of a pixel (common_kernel.cc:20-28). -/
structure Gauss where
  amp : ℝ
  xcen : ℝ
  ycen : ℝ
  fxx : ℝ
  fyy : ℝ
  fxy : ℝ

/-- `exparg` (common_kernel.cc:66-71). -/
noncomputable def expArg (fma : Bool) (g : Gauss) (xp yp : ℝ) : ℝ :=
  let dx := fl 24 (xp - g.xcen)
  let dy := fl 24 (yp - g.ycen)
  let vx := av fma g.fxx g.fxy dx dy
  let vy := av fma g.fyy g.fxy dy dx
  av fma dx dy vx vy

/-- `H`, the correction for the extent of the pixel (common_kernel.cc:66-70, 77). -/
noncomputable def hFactor (fma : Bool) (g : Gauss) (xp yp : ℝ) : ℝ :=
  let dx := fl 24 (xp - g.xcen)
  let dy := fl 24 (yp - g.ycen)
  let vx := av fma g.fxx g.fxy dx dy
  let vy := av fma g.fyy g.fxy dy dx
  fl 24 (1 + fl 24 (fl 24 (fl 24 (av fma vx vy vx vy - g.fxx) - g.fyy) / 24))

/-- `amp * Gp` (common_kernel.cc:74, 78). -/
noncomputable def gFactor (fma : Bool) (ex : ℝ → ℝ) (g : Gauss) (xp yp : ℝ) : ℝ :=
  fl 24 (g.amp * ex (fl 24 (-(1 / 2) * expArg fma g xp yp)))

/-- The residual after one more gaussian (common_kernel.cc:73, 78-80); `MAX_EXP_ARG` is 36 (kernel_limits.h:17). -/
noncomputable def subOne (fma : Bool) (ex : ℝ → ℝ) (xp yp r : ℝ) (g : Gauss) : ℝ :=
  if 36 < expArg fma g xp yp then r
  else if fma then fl 24 (r - gFactor fma ex g xp yp * hFactor fma g xp yp)
  else fl 24 (r - fl 24 (gFactor fma ex g xp yp * hFactor fma g xp yp))

/-- `ComputeResidualImage` (common_kernel.cc:57-83). -/
noncomputable def residual (fma : Bool) (ex : ℝ → ℝ) (gs : List Gauss) (xp yp data : ℝ) : ℝ :=
  gs.foldl (subOne fma ex xp yp) data

/-! ## Specification -/

/-- The exponent of a gaussian, times minus two. -/
def quad (g : Gauss) (dx dy : ℝ) : ℝ := g.fxx * dx ^ 2 + 2 * g.fxy * dx * dy + g.fyy * dy ^ 2

/-- A gaussian with the second-order correction for the extent of the pixel. -/
noncomputable def value (g : Gauss) (dx dy : ℝ) : ℝ :=
  g.amp * Real.exp (-quad g dx dy / 2) *
    (1 + ((g.fxx * dx + g.fxy * dy) ^ 2 + (g.fyy * dy + g.fxy * dx) ^ 2 - g.fxx - g.fyy) / 24)

/-! ## Error calculus -/

/-- `x'` stands for `x` up to the factor `r`, relative to a size `A` of `x`. -/
def Ap (r x' x A : ℝ) : Prop := 1 ≤ r ∧ |x' - x| ≤ (r - 1) * A ∧ |x| ≤ A

lemma Ap.size {r x' x A : ℝ} (h : Ap r x' x A) : 0 ≤ A := (abs_nonneg _).trans h.2.2

lemma Ap.abs_le {r x' x A : ℝ} (h : Ap r x' x A) : |x'| ≤ r * A := by
  have : |x'| ≤ |x' - x| + |x| := by
    have := abs_add_le (x' - x) x
    simpa using this
  have := h.2.1
  have := h.2.2
  nlinarith

lemma Ap.refl (x : ℝ) : Ap 1 x x |x| := ⟨le_rfl, by simp, le_rfl⟩

lemma Ap.mono {r s x' x A B : ℝ} (h : Ap r x' x A) (hr : r ≤ s) (hA : A ≤ B) : Ap s x' x B := by
  have := h.size
  refine ⟨h.1.trans hr, h.2.1.trans ?_, h.2.2.trans hA⟩
  have := h.1
  exact mul_le_mul (by linarith) hA (by linarith) (by linarith)

lemma Ap.flp {r x' x A : ℝ} (p : Nat) (h : Ap r x' x A) : Ap (r * (1 + 1 / 2 ^ p)) (fl p x') x A := by
  have h0 := h.size
  have h1 := h.1
  have hp : (0 : ℝ) < 1 / 2 ^ p := by positivity
  refine ⟨by nlinarith, ?_, h.2.2⟩
  have e := fl_err p x'
  have a := h.abs_le
  have t : |Float.fl p x' - x| ≤ |Float.fl p x' - x'| + |x' - x| := by
    have := abs_add_le (Float.fl p x' - x') (x' - x)
    simpa using this
  have := h.2.1
  have e' : |Float.fl p x' - x'| ≤ r * A * (1 / 2 ^ p) := e.trans (by
    rw [div_eq_mul_one_div]
    gcongr)
  nlinarith

lemma Ap.fl {r x' x A : ℝ} (h : Ap r x' x A) : Ap (r * (1 + 1 / 2 ^ 24)) (fl 24 x') x A := h.flp 24

lemma Ap.add {r x' x A y' y B : ℝ} (h : Ap r x' x A) (h' : Ap r y' y B) : Ap r (x' + y') (x + y) (A + B) :=
  ⟨h.1, (add_close h.2.1 h'.2.1).trans (le_of_eq (by ring)), (abs_add_le _ _).trans (add_le_add h.2.2 h'.2.2)⟩

lemma Ap.sub {r x' x A y' y B : ℝ} (h : Ap r x' x A) (h' : Ap r y' y B) : Ap r (x' - y') (x - y) (A + B) :=
  ⟨h.1, (sub_close h.2.1 h'.2.1).trans (le_of_eq (by ring)), (abs_sub _ _).trans (add_le_add h.2.2 h'.2.2)⟩

lemma Ap.mul {r s x' x A y' y B : ℝ} (h : Ap r x' x A) (h' : Ap s y' y B) : Ap (r * s) (x' * y') (x * y) (A * B) := by
  have h0 := h.size
  have h0' := h'.size
  have h1 := h.1
  have h1' := h'.1
  refine ⟨by nlinarith, ?_, ?_⟩
  · have e : x' * y' - x * y = x' * (y' - y) + (x' - x) * y := by ring
    have t : |x' * y' - x * y| ≤ |x'| * |y' - y| + |x' - x| * |y| := by
      rw [e, ← abs_mul, ← abs_mul]
      exact abs_add_le _ _
    have a := h.abs_le
    have b1 : |x'| * |y' - y| ≤ (r * A) * ((s - 1) * B) := mul_le_mul a h'.2.1 (abs_nonneg _) (by positivity)
    have b2 : |x' - x| * |y| ≤ ((r - 1) * A) * B :=
      mul_le_mul h.2.1 h'.2.2 (abs_nonneg _) (mul_nonneg (by linarith) h0)
    nlinarith
  · rw [abs_mul]
    exact mul_le_mul h.2.2 h'.2.2 (abs_nonneg _) h0

lemma Ap.div24 {r x' x A : ℝ} (h : Ap r x' x A) : Ap r (x' / 24) (x / 24) (A / 24) := by
  refine ⟨h.1, ?_, ?_⟩
  · rw [← sub_div, abs_div, abs_of_pos (by norm_num : (0 : ℝ) < 24)]
    have := h.2.1
    linarith
  · rw [abs_div, abs_of_pos (by norm_num : (0 : ℝ) < 24)]
    have := h.2.2
    linarith

/-- A rounding unit: the factor for one rounding. -/
noncomputable def w1 : ℝ := 1 + 1 / 2 ^ 24

lemma w1_ge : 1 ≤ w1 := by rw [w1]; norm_num

lemma Ap.av {r s a b v w A B V W a' b' v' w' : ℝ} (fma : Bool) (ha : Ap r a' a A) (hb : Ap r b' b B) (hv : Ap s v' v V)
    (hw : Ap s w' w W) : Ap (r * s * w1 ^ 2) (av fma a' b' v' w') (a * v + b * w) (A * V + B * W) := by
  have h1 := ha.mul hv
  have h2 := hb.mul hw
  have k1 := h1.fl
  have k2 := h2.fl
  have hrs := h1.1
  rw [Float.av]
  split
  · have := (Ap.add (h1.mono (show r * s ≤ r * s * (1 + 1 / 2 ^ 24) by nlinarith) le_rfl) k2).fl
    refine this.mono (le_of_eq ?_) le_rfl
    rw [w1]; ring
  · refine (Ap.add k1 k2).fl.mono (le_of_eq ?_) le_rfl
    rw [w1]; ring

/-! ## One gaussian -/

/-- The size of the terms of the quadratic form. -/
def sizeQ (g : Gauss) (dx dy : ℝ) : ℝ :=
  |dx| * (|g.fxx| * |dx| + |g.fxy| * |dy|) + |dy| * (|g.fyy| * |dy| + |g.fxy| * |dx|)

/-- The size of the terms of the correction. -/
noncomputable def sizeH (g : Gauss) (dx dy : ℝ) : ℝ :=
  1 + ((|g.fxx| * |dx| + |g.fxy| * |dy|) ^ 2 + (|g.fyy| * |dy| + |g.fxy| * |dx|) ^ 2 + |g.fxx| + |g.fyy|) / 24

lemma dx_ap (x c : ℝ) : Ap w1 (fl 24 (x - c)) (x - c) |x - c| := by
  have := (Ap.refl (x - c)).fl
  rw [one_mul] at this
  exact this

lemma v_ap (fma : Bool) (f h x y x' y' : ℝ) (hx : Ap w1 x' x |x|) (hy : Ap w1 y' y |y|) :
    Ap (w1 ^ 3) (av fma f h x' y') (f * x + h * y) (|f| * |x| + |h| * |y|) := by
  have := Ap.av fma (Ap.refl f) (Ap.refl h) hx hy
  refine this.mono (le_of_eq ?_) le_rfl
  ring

lemma expArg_ap (fma : Bool) (g : Gauss) (xp yp : ℝ) :
    Ap (w1 ^ 6) (expArg fma g xp yp) (quad g (xp - g.xcen) (yp - g.ycen))
      (sizeQ g (xp - g.xcen) (yp - g.ycen)) := by
  have hx := dx_ap xp g.xcen
  have hy := dx_ap yp g.ycen
  have := Ap.av fma hx hy (v_ap fma g.fxx g.fxy _ _ _ _ hx hy) (v_ap fma g.fyy g.fxy _ _ _ _ hy hx)
  have e : quad g (xp - g.xcen) (yp - g.ycen) =
      (xp - g.xcen) * (g.fxx * (xp - g.xcen) + g.fxy * (yp - g.ycen)) +
      (yp - g.ycen) * (g.fyy * (yp - g.ycen) + g.fxy * (xp - g.xcen)) := by
    rw [quad]; ring
  rw [e]
  exact this.mono (le_of_eq (by ring)) le_rfl

lemma hFactor_ap (fma : Bool) (g : Gauss) (xp yp : ℝ) :
    Ap (w1 ^ 12) (hFactor fma g xp yp)
      (1 + ((g.fxx * (xp - g.xcen) + g.fxy * (yp - g.ycen)) ^ 2 + (g.fyy * (yp - g.ycen) + g.fxy * (xp - g.xcen)) ^ 2
        - g.fxx - g.fyy) / 24) (sizeH g (xp - g.xcen) (yp - g.ycen)) := by
  have hx := dx_ap xp g.xcen
  have hy := dx_ap yp g.ycen
  have h1 := v_ap fma g.fxx g.fxy _ _ _ _ hx hy
  have h2 := v_ap fma g.fyy g.fxy _ _ _ _ hy hx
  have hw := w1_ge
  have pow1 : ∀ n : Nat, (1 : ℝ) ≤ w1 ^ n := fun n => one_le_pow₀ hw
  have h3 := (Ap.av fma h1 h2 h1 h2).mono (show w1 ^ 3 * w1 ^ 3 * w1 ^ 2 ≤ w1 ^ 8 from le_of_eq (by ring)) le_rfl
  have h4 := (h3.sub ((Ap.refl g.fxx).mono (pow1 8) le_rfl)).fl
  have h5 := (h4.mono (show _ ≤ w1 ^ 9 from le_of_eq (by rw [w1]; ring)) le_rfl)
  have h6 := (h5.sub ((Ap.refl g.fyy).mono (pow1 9) le_rfl)).fl
  have h7 := (h6.mono (show _ ≤ w1 ^ 10 from le_of_eq (by rw [w1]; ring)) le_rfl).div24.fl
  have h8 := (h7.mono (show _ ≤ w1 ^ 11 from le_of_eq (by rw [w1]; ring)) le_rfl)
  have h9 := (((Ap.refl 1).mono (pow1 11) le_rfl).add h8).fl
  have h10 := (h9.mono (show _ ≤ w1 ^ 12 from le_of_eq (by rw [w1]; ring)) le_rfl)
  have e1 : ∀ a b : ℝ, a * a + b * b - g.fxx - g.fyy = a ^ 2 + b ^ 2 - g.fxx - g.fyy := by intro a b; ring
  rw [e1] at h10
  refine h10.mono le_rfl (le_of_eq ?_)
  rw [sizeH, abs_one]
  ring

lemma av_rep (fma : Bool) (a b v w : ℝ) : Rep 24 (av fma a b v w) := by
  rw [av]; split <;> exact fl_isRep 24 (by norm_num) _

lemma rep_half (x : ℝ) (h : Rep 24 x) : Rep 24 (-(1 / 2) * x) := by
  obtain ⟨m, e, hm, rfl⟩ := h
  refine ⟨-m, e - 1, by rwa [abs_neg], ?_⟩
  rw [zpow_sub_one₀ (by norm_num : (2 : ℝ) ≠ 0)]
  push_cast
  ring

/-- Halving the exponent is exact. -/
lemma half_exact (fma : Bool) (g : Gauss) (xp yp : ℝ) :
    fl 24 (-(1 / 2) * expArg fma g xp yp) = -(1 / 2) * expArg fma g xp yp :=
  fl_rep 24 (by norm_num) _ (rep_half _ (by rw [expArg]; exact av_rep _ _ _ _ _))

/-- Exponentials of close numbers. -/
lemma exp_ap (a b q t E : ℝ) (h : |a - b| ≤ q) (ht : 0 ≤ t) (hE : |E - Real.exp (-(1 / 2) * a)| ≤ t * Real.exp (-(1 / 2) * a)) :
    Ap ((1 + t) * Real.exp (q / 2)) E (Real.exp (-b / 2)) (Real.exp (-b / 2)) := by
  have hq : 0 ≤ q := (abs_nonneg _).trans h
  have e1 : Real.exp (-(1 / 2) * a) = Real.exp (-b / 2) * Real.exp ((b - a) / 2) := by
    rw [← Real.exp_add]; congr 1; ring
  have hb := Real.exp_pos (-b / 2)
  have hab := abs_le.1 h
  have u1 : Real.exp ((b - a) / 2) ≤ Real.exp (q / 2) := Real.exp_le_exp.2 (by linarith)
  have u2 : Real.exp (-(q / 2)) ≤ Real.exp ((b - a) / 2) := Real.exp_le_exp.2 (by linarith)
  have u3 : 1 ≤ Real.exp (q / 2) := Real.one_le_exp (by linarith)
  have u4 : Real.exp (-(q / 2)) = 1 / Real.exp (q / 2) := by rw [Real.exp_neg]; ring
  have u5 : 2 - Real.exp (q / 2) ≤ Real.exp (-(q / 2)) := by
    rw [u4, le_div_iff₀ (by linarith)]
    nlinarith [sq_nonneg (Real.exp (q / 2) - 1)]
  refine ⟨by nlinarith, ?_, by rw [abs_of_pos hb]⟩
  rw [e1] at hE
  set B := Real.exp (-b / 2)
  set D := Real.exp ((b - a) / 2)
  set R := Real.exp (q / 2)
  have hE' := abs_le.1 hE
  have hD : 0 ≤ D := (Real.exp_pos _).le
  have k1 : B * D ≤ B * R := mul_le_mul_of_nonneg_left u1 hb.le
  have k2 : B * (2 - R) ≤ B * D := mul_le_mul_of_nonneg_left (u5.trans u2) hb.le
  have k3 : t * (B * D) ≤ t * (B * R) := mul_le_mul_of_nonneg_left k1 ht
  rw [abs_le]
  constructor <;> nlinarith

/-- C135 (in general): the exponent is right up to six roundings of its terms, so the value of a pixel, as a fraction of
the size of its terms, is right up to 25 roundings, the error of the exponential and the error of the exponent; a
gaussian that is left out would have contributed at most its value at an exponent of 18, less that error. -/
theorem C135_general (fma : Bool) (ex : ℝ → ℝ) (g : Gauss) (xp yp t : ℝ) (ht : 0 ≤ t)
    (hex : |ex (-(1 / 2) * expArg fma g xp yp) - Real.exp (-(1 / 2) * expArg fma g xp yp)| ≤
      t * Real.exp (-(1 / 2) * expArg fma g xp yp)) :
    |expArg fma g xp yp - quad g (xp - g.xcen) (yp - g.ycen)| ≤
      ((1 + 1 / 2 ^ 24) ^ 6 - 1) * sizeQ g (xp - g.xcen) (yp - g.ycen) ∧
    |gFactor fma ex g xp yp * hFactor fma g xp yp - value g (xp - g.xcen) (yp - g.ycen)| ≤
      ((1 + 1 / 2 ^ 24) ^ 13 * (1 + t) *
        Real.exp (((1 + 1 / 2 ^ 24) ^ 6 - 1) * sizeQ g (xp - g.xcen) (yp - g.ycen) / 2) - 1) *
      (|g.amp| * Real.exp (-quad g (xp - g.xcen) (yp - g.ycen) / 2) * sizeH g (xp - g.xcen) (yp - g.ycen)) ∧
    |value g (xp - g.xcen) (yp - g.ycen)| ≤
      |g.amp| * Real.exp (-quad g (xp - g.xcen) (yp - g.ycen) / 2) * sizeH g (xp - g.xcen) (yp - g.ycen) ∧
    |fl 24 (gFactor fma ex g xp yp * hFactor fma g xp yp) - value g (xp - g.xcen) (yp - g.ycen)| ≤
      ((1 + 1 / 2 ^ 24) ^ 14 * (1 + t) *
        Real.exp (((1 + 1 / 2 ^ 24) ^ 6 - 1) * sizeQ g (xp - g.xcen) (yp - g.ycen) / 2) - 1) *
      (|g.amp| * Real.exp (-quad g (xp - g.xcen) (yp - g.ycen) / 2) * sizeH g (xp - g.xcen) (yp - g.ycen)) := by
  have hq := expArg_ap fma g xp yp
  have hE := exp_ap _ _ _ t _ hq.2.1 ht hex
  have h1 := ((Ap.refl g.amp).mul hE).fl
  have h2 := h1.mul (hFactor_ap fma g xp yp)
  have e : gFactor fma ex g xp yp = fl 24 (g.amp * ex (-(1 / 2) * expArg fma g xp yp)) := by
    rw [gFactor, half_exact]
  rw [← e] at h2
  refine ⟨hq.2.1, ?_, h2.2.2, ?_⟩
  · refine (h2.2.1).trans (le_of_eq ?_)
    rw [w1]; ring
  · refine (h2.fl.2.1).trans (le_of_eq ?_)
    rw [w1]; ring

/-! ## Gaussians of ordinary shape -/

/-- A gaussian at least half a pixel wide along both axes and not too elongated: the correlation of its two coordinates
is at most a half. -/
def Ordinary (g : Gauss) : Prop := 0 ≤ g.fxx ∧ g.fxx ≤ 4 ∧ 0 ≤ g.fyy ∧ g.fyy ≤ 4 ∧ 4 * g.fxy ^ 2 ≤ g.fxx * g.fyy

/-- The library exponential is right to two units in the last place, on the range where it is used. -/
def ExpOk (ex : ℝ → ℝ) : Prop := ∀ x, -18 ≤ x → x ≤ 0 → |ex x - Real.exp x| ≤ 1 / 2 ^ 22 * Real.exp x

lemma cross (g : Gauss) (h : Ordinary g) (X Y : ℝ) (hX : 0 ≤ X) (hY : 0 ≤ Y) :
    4 * (|g.fxy| * X * Y) ≤ g.fxx * X ^ 2 + g.fyy * Y ^ 2 := by
  obtain ⟨h1, h2, h3, h4, h5⟩ := h
  have hT : 0 ≤ g.fxx * X ^ 2 + g.fyy * Y ^ 2 := by positivity
  refine abs_le_of_sq_le_sq' ?_ hT |>.2
  have e : |g.fxy| ^ 2 = g.fxy ^ 2 := sq_abs _
  have : (4 * (|g.fxy| * X * Y)) ^ 2 = 4 * (4 * g.fxy ^ 2) * (X ^ 2 * Y ^ 2) := by rw [← e]; ring
  rw [this]
  have k : 4 * g.fxy ^ 2 * (X ^ 2 * Y ^ 2) ≤ g.fxx * g.fyy * (X ^ 2 * Y ^ 2) :=
    mul_le_mul_of_nonneg_right h5 (by positivity)
  nlinarith [sq_nonneg (g.fxx * X ^ 2 - g.fyy * Y ^ 2)]

lemma quad_ge (g : Gauss) (h : Ordinary g) (dx dy : ℝ) :
    (g.fxx * |dx| ^ 2 + g.fyy * |dy| ^ 2) / 2 ≤ quad g dx dy := by
  have c := cross g h |dx| |dy| (abs_nonneg _) (abs_nonneg _)
  rw [quad]
  have : -(|g.fxy| * |dx| * |dy|) ≤ g.fxy * dx * dy := by
    rw [← abs_mul, ← abs_mul]; exact neg_abs_le _
  rw [sq_abs, sq_abs] at *
  nlinarith

lemma quad_nonneg (g : Gauss) (h : Ordinary g) (dx dy : ℝ) : 0 ≤ quad g dx dy := by
  refine le_trans ?_ (quad_ge g h dx dy)
  have := h.1
  have := h.2.2.1
  positivity

lemma sizeQ_le (g : Gauss) (h : Ordinary g) (dx dy : ℝ) : sizeQ g dx dy ≤ 3 * quad g dx dy := by
  have c := cross g h |dx| |dy| (abs_nonneg _) (abs_nonneg _)
  have q := quad_ge g h dx dy
  rw [sizeQ, abs_of_nonneg h.1, abs_of_nonneg h.2.2.1]
  nlinarith

lemma sizeH_le (g : Gauss) (h : Ordinary g) (dx dy : ℝ) : sizeH g dx dy ≤ 4 / 3 + 3 / 4 * quad g dx dy := by
  have c := cross g h |dx| |dy| (abs_nonneg _) (abs_nonneg _)
  have q := quad_ge g h dx dy
  rw [sizeH, abs_of_nonneg h.1, abs_of_nonneg h.2.2.1]
  obtain ⟨h1, h2, h3, h4, h5⟩ := h
  rw [← sq_abs g.fxy] at h5
  set X := |dx|
  set Y := |dy|
  set C := |g.fxy|
  set a := g.fxx
  set b := g.fyy
  have hX : 0 ≤ X := abs_nonneg _
  have hY : 0 ≤ Y := abs_nonneg _
  have hC : 0 ≤ C := abs_nonneg _
  have e1 : a * (a * X ^ 2) ≤ 4 * (a * X ^ 2) := mul_le_mul_of_nonneg_right h2 (by positivity)
  have e2 : b * (b * Y ^ 2) ≤ 4 * (b * Y ^ 2) := mul_le_mul_of_nonneg_right h4 (by positivity)
  have e3 : (a + b) * (4 * (C * X * Y)) ≤ (a + b) * (a * X ^ 2 + b * Y ^ 2) := mul_le_mul_of_nonneg_left c (by linarith)
  have e4 : (a + b) * (a * X ^ 2 + b * Y ^ 2) ≤ 8 * (a * X ^ 2 + b * Y ^ 2) :=
    mul_le_mul_of_nonneg_right (by linarith) (by positivity)
  have e5 : 4 * C ^ 2 * X ^ 2 ≤ a * b * X ^ 2 := mul_le_mul_of_nonneg_right h5 (by positivity)
  have e6 : 4 * C ^ 2 * Y ^ 2 ≤ a * b * Y ^ 2 := mul_le_mul_of_nonneg_right h5 (by positivity)
  have e7 : b * (a * X ^ 2) ≤ 4 * (a * X ^ 2) := mul_le_mul_of_nonneg_right h4 (by positivity)
  have e8 : a * (b * Y ^ 2) ≤ 4 * (b * Y ^ 2) := mul_le_mul_of_nonneg_right h2 (by positivity)
  nlinarith

lemma exp_sq (x : ℝ) (hx : 0 ≤ x) : 1 + x + x ^ 2 / 2 ≤ Real.exp x := Real.quadratic_le_exp_of_nonneg hx

lemma exp_small (z : ℝ) (hz : z ≤ 1 / 2 ^ 10) (h0 : 0 ≤ z) : Real.exp z ≤ 1 + 1001 / 1000 * z := by
  have h1 : 1 - z ≤ Real.exp (-z) := by have := Real.add_one_le_exp (-z); linarith
  rw [Real.exp_neg] at h1
  have hp := Real.exp_pos z
  have h2 : (1 - z) * Real.exp z ≤ 1 := by
    have := mul_le_mul_of_nonneg_right h1 hp.le
    rwa [inv_mul_cancel₀ hp.ne'] at this
  have h3 : (1 - z) * (1 + 1001 / 1000 * z) ≥ 1 := by nlinarith
  by_contra hc
  push Not at hc
  nlinarith

lemma exp17 : 24000000 ≤ Real.exp 17 := by
  have : Real.exp 17 = Real.exp 1 ^ 17 := by rw [← Real.exp_nat_mul]; norm_num
  rw [this]
  have h := Real.exp_one_gt_d9
  calc (24000000 : ℝ) ≤ (2.7182818283 : ℝ) ^ 17 := by norm_num
    _ ≤ _ := pow_le_pow_left₀ (by norm_num) h.le 17

lemma g6 : (1 + 1 / 2 ^ 24 : ℝ) ^ 6 - 1 ≤ 61 / 10 / 2 ^ 24 := by norm_num

/-- The error of a gaussian that is kept. -/
lemma kept_num (A Q S H : ℝ) (hA : 0 ≤ A) (hQ : 0 ≤ Q) (hQ2 : Q ≤ 37) (hS : S ≤ 3 * Q) (hS0 : 0 ≤ S) (hH : H ≤ 4 / 3 + 3 / 4 * Q)
    (hH0 : 0 ≤ H) :
    ((1 + 1 / 2 ^ 24) ^ 14 * (1 + 1 / 2 ^ 22) * Real.exp (((1 + 1 / 2 ^ 24) ^ 6 - 1) * S / 2) - 1) *
      (A * Real.exp (-Q / 2) * H) ≤ A / 2 ^ 18 := by
  have g6' := g6
  have g60 : (0 : ℝ) ≤ (1 + 1 / 2 ^ 24 : ℝ) ^ 6 - 1 := by norm_num
  set G := (1 + 1 / 2 ^ 24 : ℝ) ^ 6 - 1
  have z0 : 0 ≤ G * S / 2 := by positivity
  have z1 : G * S / 2 ≤ 183 / 20 / 2 ^ 24 * Q := by
    have : G * S ≤ (61 / 10 / 2 ^ 24) * (3 * Q) := mul_le_mul g6' hS hS0 (by positivity)
    linarith
  have z2 := exp_small _ (show G * S / 2 ≤ 1 / 2 ^ 10 by
    refine z1.trans ?_
    calc 183 / 20 / 2 ^ 24 * Q ≤ 183 / 20 / 2 ^ 24 * 37 := by gcongr
      _ ≤ _ := by norm_num) z0
  have z3 : Real.exp (G * S / 2) ≤ 1 + 92 / 10 / 2 ^ 24 * Q := by
    refine z2.trans ?_
    have : 1001 / 1000 * (G * S / 2) ≤ 1001 / 1000 * (183 / 20 / 2 ^ 24 * Q) := by gcongr
    have : 1001 / 1000 * (183 / 20 / 2 ^ 24 * Q) ≤ 92 / 10 / 2 ^ 24 * Q := by
      have : (1001 / 1000 * (183 / 20 / 2 ^ 24) : ℝ) ≤ 92 / 10 / 2 ^ 24 := by norm_num
      nlinarith
    linarith
  have z4 : (1 + 1 / 2 ^ 24 : ℝ) ^ 14 * (1 + 1 / 2 ^ 22) ≤ 1 + 181 / 10 / 2 ^ 24 := by norm_num
  have z5 : (1 + 1 / 2 ^ 24 : ℝ) ^ 14 * (1 + 1 / 2 ^ 22) * Real.exp (G * S / 2) - 1 ≤ (19 + 10 * Q) / 2 ^ 24 := by
    have := mul_le_mul z4 z3 (Real.exp_pos _).le (by norm_num)
    refine (sub_le_sub_right this 1).trans ?_
    nlinarith
  have z6 : (0 : ℝ) ≤ (19 + 10 * Q) / 2 ^ 24 := by positivity
  have hp := Real.exp_pos (-Q / 2)
  refine (mul_le_mul z5 (mul_le_mul_of_nonneg_left hH (by positivity)) (by positivity) z6).trans ?_
  have hE : 1 + Q / 2 + (Q / 2) ^ 2 / 2 ≤ Real.exp (Q / 2) := exp_sq _ (by positivity)
  have key : (19 + 10 * Q) * (4 / 3 + 3 / 4 * Q) ≤ 64 * Real.exp (Q / 2) := by nlinarith
  have inv : Real.exp (-Q / 2) * Real.exp (Q / 2) = 1 := by rw [← Real.exp_add]; norm_num; ring
  have : (19 + 10 * Q) / 2 ^ 24 * (A * Real.exp (-Q / 2) * (4 / 3 + 3 / 4 * Q)) =
      A / 2 ^ 24 * (Real.exp (-Q / 2) * ((19 + 10 * Q) * (4 / 3 + 3 / 4 * Q))) := by ring
  rw [this]
  have : Real.exp (-Q / 2) * ((19 + 10 * Q) * (4 / 3 + 3 / 4 * Q)) ≤ 64 := by
    have := mul_le_mul_of_nonneg_left key hp.le
    nlinarith
  calc A / 2 ^ 24 * (Real.exp (-Q / 2) * ((19 + 10 * Q) * (4 / 3 + 3 / 4 * Q))) ≤ A / 2 ^ 24 * 64 := by gcongr
    _ = A / 2 ^ 18 := by ring

/-- The value of a gaussian that is left out. -/
lemma skipped_num (A Q H : ℝ) (hA : 0 ≤ A) (hQ : 359 / 10 ≤ Q) (hH : H ≤ 4 / 3 + 3 / 4 * Q) :
    A * Real.exp (-Q / 2) * H ≤ A / 2 ^ 20 := by
  have hp := Real.exp_pos (-Q / 2)
  have e1 : Q / 2 - 16 ≤ Real.exp (Q / 2 - 17) := by have := Real.add_one_le_exp (Q / 2 - 17); linarith
  have e2 : Real.exp (Q / 2) = Real.exp 17 * Real.exp (Q / 2 - 17) := by rw [← Real.exp_add]; congr 1; ring
  have e3 : 24000000 * (Q / 2 - 16) ≤ Real.exp (Q / 2) := by
    rw [e2]
    exact mul_le_mul exp17 e1 (by linarith) (Real.exp_pos _).le
  have key : (4 / 3 + 3 / 4 * Q) * 2 ^ 20 ≤ Real.exp (Q / 2) := by nlinarith
  have inv : Real.exp (-Q / 2) * Real.exp (Q / 2) = 1 := by rw [← Real.exp_add]; norm_num; ring
  have : Real.exp (-Q / 2) * (4 / 3 + 3 / 4 * Q) ≤ 1 / 2 ^ 20 := by
    have := mul_le_mul_of_nonneg_left key hp.le
    rw [inv] at this
    rw [le_div_iff₀ (by norm_num)]
    linarith
  calc A * Real.exp (-Q / 2) * H ≤ A * Real.exp (-Q / 2) * (4 / 3 + 3 / 4 * Q) := by gcongr
    _ = A * (Real.exp (-Q / 2) * (4 / 3 + 3 / 4 * Q)) := by ring
    _ ≤ A * (1 / 2 ^ 20) := by gcongr
    _ = _ := by ring

lemma quad_cut (fma : Bool) (g : Gauss) (h : Ordinary g) (xp yp : ℝ) :
    0 ≤ expArg fma g xp yp ∧ (expArg fma g xp yp ≤ 36 → quad g (xp - g.xcen) (yp - g.ycen) ≤ 37) ∧
    (36 < expArg fma g xp yp → 359 / 10 ≤ quad g (xp - g.xcen) (yp - g.ycen)) := by
  have hq := (expArg_ap fma g xp yp).2.1
  have hs := sizeQ_le g h (xp - g.xcen) (yp - g.ycen)
  have h0 := (expArg_ap fma g xp yp).size
  have g6' := g6
  rw [← w1] at g6'
  have hq' : |expArg fma g xp yp - quad g (xp - g.xcen) (yp - g.ycen)| ≤
      1 / 2 ^ 18 * quad g (xp - g.xcen) (yp - g.ycen) := by
    refine hq.trans ((mul_le_mul g6' hs h0 (by positivity)).trans ?_)
    have := quad_nonneg g h (xp - g.xcen) (yp - g.ycen)
    nlinarith
  have := abs_le.1 hq'
  have := quad_nonneg g h (xp - g.xcen) (yp - g.ycen)
  refine ⟨by nlinarith, fun _ => by nlinarith, fun _ => by nlinarith⟩

/-- C135 (one gaussian): what is subtracted from a pixel for one gaussian of ordinary shape is the value of the gaussian
in that pixel up to `2^-18` of its amplitude, whether the gaussian is cut off there or not. -/
theorem C135_value (fma : Bool) (ex : ℝ → ℝ) (hex : ExpOk ex) (g : Gauss)
    (h : 0 ≤ g.fxx ∧ g.fxx ≤ 4 ∧ 0 ≤ g.fyy ∧ g.fyy ≤ 4 ∧ 4 * g.fxy ^ 2 ≤ g.fxx * g.fyy) (xp yp r : ℝ) :
    ∃ C, |C - g.amp * Real.exp (-(g.fxx * (xp - g.xcen) ^ 2 + 2 * g.fxy * (xp - g.xcen) * (yp - g.ycen) +
            g.fyy * (yp - g.ycen) ^ 2) / 2) *
          (1 + ((g.fxx * (xp - g.xcen) + g.fxy * (yp - g.ycen)) ^ 2 + (g.fyy * (yp - g.ycen) + g.fxy * (xp - g.xcen)) ^ 2
            - g.fxx - g.fyy) / 24)| ≤ |g.amp| / 2 ^ 18 ∧
      (subOne fma ex xp yp r g = fl 24 (r - C) ∨ C = 0 ∧ subOne fma ex xp yp r g = r) := by
  have hO : Ordinary g := h
  have hc := quad_cut fma g hO xp yp
  have hs := sizeQ_le g hO (xp - g.xcen) (yp - g.ycen)
  have h0 := (expArg_ap fma g xp yp).size
  have hH := sizeH_le g hO (xp - g.xcen) (yp - g.ycen)
  have hH0 := (hFactor_ap fma g xp yp).size
  have hn := quad_nonneg g hO (xp - g.xcen) (yp - g.ycen)
  change ∃ C, |C - value g (xp - g.xcen) (yp - g.ycen)| ≤ _ ∧ _
  rw [subOne]
  by_cases hk : 36 < expArg fma g xp yp
  · rw [if_pos hk]
    refine ⟨0, ?_, .inr ⟨rfl, rfl⟩⟩
    have h3 := (C135_general fma Real.exp g xp yp 0 le_rfl (by simp)).2.2.1
    rw [zero_sub, abs_neg]
    refine h3.trans ((skipped_num _ _ _ (abs_nonneg _) (hc.2.2 hk) hH).trans ?_)
    have := abs_nonneg g.amp
    nlinarith
  · rw [if_neg hk]
    push Not at hk
    have hg := C135_general fma ex g xp yp (1 / 2 ^ 22) (by norm_num) (hex _ (by linarith) (by linarith [hc.1]))
    have num := kept_num |g.amp| _ _ _ (abs_nonneg _) hn (hc.2.1 hk) hs h0 hH hH0
    by_cases hf : fma = true
    · rw [if_pos hf]
      refine ⟨_, ?_, .inl rfl⟩
      refine hg.2.1.trans (le_trans ?_ num)
      have hp := Real.exp_pos (-quad g (xp - g.xcen) (yp - g.ycen) / 2)
      have he := Real.exp_pos (((1 + 1 / 2 ^ 24) ^ 6 - 1) * sizeQ g (xp - g.xcen) (yp - g.ycen) / 2)
      apply mul_le_mul_of_nonneg_right _ (by positivity)
      apply sub_le_sub_right
      apply mul_le_mul_of_nonneg_right _ he.le
      norm_num
    · rw [if_neg hf]
      exact ⟨_, hg.2.2.2.trans num, .inl rfl⟩

/-! ## All the gaussians of a pixel -/

/-- C135 (residual): after all the gaussians the residual of a pixel is the data less the values of the gaussians, up to
`2^-18` of the amplitudes and one rounding of the sum per gaussian. -/
theorem C135_residual (fma : Bool) (ex : ℝ → ℝ) (hex : ExpOk ex) (gs : List Gauss)
    (h : ∀ g ∈ gs, 0 ≤ g.fxx ∧ g.fxx ≤ 4 ∧ 0 ≤ g.fyy ∧ g.fyy ≤ 4 ∧ 4 * g.fxy ^ 2 ≤ g.fxx * g.fyy) (xp yp data : ℝ) :
    |residual fma ex gs xp yp data - (data - (gs.map fun g => value g (xp - g.xcen) (yp - g.ycen)).sum)| ≤
      (gs.map fun g => |g.amp| / 2 ^ 18).sum + ((1 + 1 / 2 ^ 24) ^ gs.length - 1) *
        (|data| + (gs.map fun g => |value g (xp - g.xcen) (yp - g.ycen)| + |g.amp| / 2 ^ 18).sum) := by
  have key : ∀ (gs : List Gauss) (_ : ∀ g ∈ gs, Ordinary g) (k : Nat) (r e V : ℝ), Ap (w1 ^ k) r e V →
      ∃ T Z, Ap (w1 ^ (k + gs.length)) (residual fma ex gs xp yp r) (e - T) (V + Z) ∧
        |T - (gs.map fun g => value g (xp - g.xcen) (yp - g.ycen)).sum| ≤ (gs.map fun g => |g.amp| / 2 ^ 18).sum ∧
        Z ≤ (gs.map fun g => |value g (xp - g.xcen) (yp - g.ycen)| + |g.amp| / 2 ^ 18).sum := by
    intro gs
    induction gs with
    | nil =>
      intro _ k r e V hr
      refine ⟨0, 0, ?_, by simp, by simp⟩
      simpa [residual] using hr
    | cons g gs ih =>
      intro ho k r e V hr
      obtain ⟨C, hC, hs⟩ := C135_value fma ex hex g (ho g (by simp)) xp yp r
      change |C - value g (xp - g.xcen) (yp - g.ycen)| ≤ _ at hC
      have hw := w1_ge
      have hstep : Ap (w1 ^ (k + 1)) (subOne fma ex xp yp r g) (e - C) (V + |C|) := by
        rcases hs with hs | ⟨hC0, hs⟩
        · rw [hs]
          exact ((hr.sub ((Ap.refl C).mono (one_le_pow₀ hw) le_rfl)).fl).mono (le_of_eq (by rw [w1]; ring)) le_rfl
        · rw [hs, hC0]
          refine (show Ap (w1 ^ k) r (e - 0) (V + |0|) by simpa using hr).mono (pow_le_pow_right₀ hw (by omega)) le_rfl
      obtain ⟨T, Z, h1, h2, h3⟩ := ih (fun x hx => ho x (by simp [hx])) (k + 1) _ _ _ hstep
      refine ⟨C + T, |C| + Z, ?_, ?_, ?_⟩
      · have e1 : e - (C + T) = e - C - T := by ring
        have e2 : V + (|C| + Z) = V + |C| + Z := by ring
        rw [e1, e2, List.length_cons, show k + (gs.length + 1) = k + 1 + gs.length by omega]
        exact h1
      · rw [List.map_cons, List.sum_cons, List.map_cons, List.sum_cons]
        exact add_close hC h2
      · rw [List.map_cons, List.sum_cons]
        refine add_le_add ?_ h3
        have := abs_add_le (C - value g (xp - g.xcen) (yp - g.ycen)) (value g (xp - g.xcen) (yp - g.ycen))
        rw [sub_add_cancel] at this
        linarith
  obtain ⟨T, Z, h1, h2, h3⟩ := key gs h 0 data data |data| (by simpa using Ap.refl data)
  rw [zero_add] at h1
  have h4 := h1.2.1
  have hw : (0 : ℝ) ≤ w1 ^ gs.length - 1 := sub_nonneg.2 h1.1
  have h5 : (w1 ^ gs.length - 1) * (|data| + Z) ≤ (w1 ^ gs.length - 1) *
      (|data| + (gs.map fun g => |value g (xp - g.xcen) (yp - g.ycen)| + |g.amp| / 2 ^ 18).sum) :=
    mul_le_mul_of_nonneg_left (by linarith) hw
  have t := abs_add_le (residual fma ex gs xp yp data - (data - T))
    ((gs.map fun g => value g (xp - g.xcen) (yp - g.ycen)).sum - T)
  rw [abs_sub_comm _ T] at t
  rw [← w1]
  refine (le_of_eq ?_).trans (t.trans (by linarith))
  congr 1
  ring

/-! ## Chi-square -/

/-- The contribution of one pixel to chi-square (compute_gaussians_kernel.cc:286-293): the residual and the data are
divided by the error in single precision, the rest is in double precision. -/
noncomputable def chi2 (r d ierr : ℝ) : ℝ :=
  let a := fl 24 (r * ierr)
  let b := fl 24 (d * ierr)
  fl 53 (fl 53 (a - b) * fl 53 (a + b))

/-- C135 (chi-square): the contribution of a pixel to chi-square is `(r^2 - d^2) / sigma^2`, to three units of `2^-24`
of `((|r| + |d|) / sigma)^2`.  In particular it is only as exact as the data are large, however small the residual. -/
theorem C135_chi2 (r d ierr : ℝ) :
    |chi2 r d ierr - (r ^ 2 - d ^ 2) * ierr ^ 2| ≤ 3 / 2 ^ 24 * ((|r| + |d|) * |ierr|) ^ 2 := by
  have ha := ((Ap.refl r).mul (Ap.refl ierr)).fl
  have hb := ((Ap.refl d).mul (Ap.refl ierr)).fl
  have h := ((ha.sub hb).flp 53).mul ((ha.add hb).flp 53) |>.flp 53
  have e : (r * ierr - d * ierr) * (r * ierr + d * ierr) = (r ^ 2 - d ^ 2) * ierr ^ 2 := by ring
  rw [e] at h
  have e2 : (|r| * |ierr| + |d| * |ierr|) * (|r| * |ierr| + |d| * |ierr|) = ((|r| + |d|) * |ierr|) ^ 2 := by ring
  rw [e2] at h
  refine h.2.1.trans ?_
  apply mul_le_mul_of_nonneg_right _ (by positivity)
  norm_num

/-! ## Limits -/

/-- How to round a number by hand. -/
lemma fl_of (p : Nat) (x : ℝ) (k n : ℤ) (h1 : (2 : ℝ) ^ k ≤ |x|) (h2 : |x| < (2 : ℝ) ^ (k + 1))
    (h3 : |(n : ℝ) - x / 2 ^ (k - ((p : ℤ) - 1))| < 1 / 2) : fl p x = n * 2 ^ (k - ((p : ℤ) - 1)) := by
  have hp : 0 < |x| := lt_of_lt_of_le (by positivity) h1
  have hlog : Int.log 2 |x| = k := by
    apply le_antisymm
    · have := (Int.lt_zpow_iff_log_lt (b := 2) (by norm_num) hp).mp (by exact_mod_cast h2)
      omega
    · exact (Int.zpow_le_iff_le_log (b := 2) (by norm_num) hp).mp (by exact_mod_cast h1)
  rw [fl, if_neg (abs_pos.1 hp), ulp, hlog]
  congr 2
  have hr := roundEven_nearest (x / 2 ^ (k - ((p : ℤ) - 1))) n
  have : |((roundEven (x / 2 ^ (k - ((p : ℤ) - 1))) - n : ℤ) : ℝ)| < 1 := by
    push_cast
    have e := abs_sub_le (roundEven (x / 2 ^ (k - ((p : ℤ) - 1))) : ℝ) (x / 2 ^ (k - ((p : ℤ) - 1))) n
    rw [abs_sub_comm (x / _) _] at e
    linarith
  have : |roundEven (x / 2 ^ (k - ((p : ℤ) - 1))) - n| < 1 := by exact_mod_cast this
  have := Int.abs_lt_one_iff.1 this
  omega

/-- A gaussian elongated along the diagonal. -/
noncomputable def thin : Gauss := ⟨1, 0, 0, 1, 1, -(1 - 1 / 2 ^ 24)⟩

lemma fl_thin : fl 24 (-(1 - 1 / 2 ^ 24) * 6144) = -(6144 - 1 / 2 ^ 11) := by
  have := fl_of 24 (-(1 - 1 / 2 ^ 24) * 6144) 12 (-(6144 * 2 ^ 11 - 1)) (by rw [abs_of_neg] <;> norm_num)
    (by rw [abs_of_neg] <;> norm_num) (by norm_num [abs_lt])
  rw [this]
  norm_num

lemma fl_lit (x : ℝ) (n e : ℤ) (h : |n| ≤ 2 ^ 24) (hx : x = n * 2 ^ e) : fl 24 x = x :=
  fl_rep 24 (by norm_num) x ⟨n, e, h, hx⟩

/-- C135 (elongated gaussians): without the condition on the shape the exponent can be wrong by a third, although every
number in the gaussian and the position of the pixel are exact in single precision: here it is 6 instead of 4.5. -/
theorem C135_elongated_refuted (fma : Bool) : Rep 24 thin.fxy ∧ expArg fma thin 6144 6144 = 6 ∧
    thin.fxx * 6144 ^ 2 + 2 * thin.fxy * 6144 * 6144 + thin.fyy * 6144 ^ 2 = 9 / 2 ∧
    0 < thin.fxx * thin.fyy - thin.fxy ^ 2 := by
  refine ⟨⟨-(2 ^ 24 - 1), -24, by norm_num, by norm_num [thin]⟩, ?_, by norm_num [thin], by norm_num [thin]⟩
  have h1 : fl 24 (6144 : ℝ) = 6144 := fl_lit _ 6144 0 (by norm_num) (by norm_num)
  have h2 : fl 24 (6144 + -(6144 - 1 / 2 ^ 11) : ℝ) = 1 / 2 ^ 11 := by
    have e : (6144 + -(6144 - 1 / 2 ^ 11) : ℝ) = 1 / 2 ^ 11 := by ring
    rw [e]
    exact fl_lit _ 1 (-11) (by norm_num) (by norm_num)
  have hv : av fma 1 (-(1 - 1 / 2 ^ 24)) 6144 6144 = 1 / 2 ^ 11 := by
    rw [av, fl_thin, one_mul, h1, h2, ite_self]
  have h3 : fl 24 (6144 * (1 / 2 ^ 11) : ℝ) = 3 := by
    rw [show (6144 * (1 / 2 ^ 11) : ℝ) = 3 by norm_num]
    exact fl_lit _ 3 0 (by norm_num) (by norm_num)
  have h4 : fl 24 (3 + 3 : ℝ) = 6 := by
    rw [show (3 + 3 : ℝ) = 6 by norm_num]
    exact fl_lit _ 6 0 (by norm_num) (by norm_num)
  simp only [expArg, thin, sub_zero, h1, hv]
  rw [av, h3, show (6144 * (1 / 2 ^ 11) : ℝ) = 3 by norm_num, h4, ite_self]

lemma fl_square : fl 24 ((1 + 3 / 2 ^ 13) * (1 + 3 / 2 ^ 13)) = 1 + 3 / 2 ^ 12 + 1 / 2 ^ 23 ∧
    fl 24 (-(1 + 3 / 2 ^ 13) * (1 + 3 / 2 ^ 13)) = -(1 + 3 / 2 ^ 12 + 1 / 2 ^ 23) := by
  constructor
  · rw [fl_of 24 _ 0 (2 ^ 23 + 3 * 2 ^ 11 + 1) (by rw [abs_of_pos] <;> norm_num) (by rw [abs_of_pos] <;> norm_num)
      (by norm_num [abs_lt])]
    norm_num
  · rw [fl_of 24 _ 0 (-(2 ^ 23 + 3 * 2 ^ 11 + 1)) (by rw [abs_of_neg] <;> norm_num) (by rw [abs_of_neg] <;> norm_num)
      (by norm_num [abs_lt])]
    norm_num

/-- C135 (two compilations): without fusing the difference of two equal products is zero; with fusing the rounding error
of one of them is left, so the same source gives different numbers on different machines. -/
theorem C135_fused : av false (1 + 3 / 2 ^ 13) (-(1 + 3 / 2 ^ 13)) (1 + 3 / 2 ^ 13) (1 + 3 / 2 ^ 13) = 0 ∧
    av true (1 + 3 / 2 ^ 13) (-(1 + 3 / 2 ^ 13)) (1 + 3 / 2 ^ 13) (1 + 3 / 2 ^ 13) = 1 / 2 ^ 26 := by
  rw [av, av, if_neg (by simp), if_pos rfl, fl_square.1, fl_square.2]
  refine ⟨by rw [add_neg_cancel, fl, if_pos rfl], ?_⟩
  rw [show ((1 + 3 / 2 ^ 13) * (1 + 3 / 2 ^ 13) + -(1 + 3 / 2 ^ 12 + 1 / 2 ^ 23) : ℝ) = 1 / 2 ^ 26 by norm_num]
  exact fl_lit _ 1 (-26) (by norm_num) (by norm_num)

/-- Two gaussians that meet the conditions, in a pixel where one is cut off and the other is not. -/
noncomputable def pairG : List Gauss := [⟨3, 10, 20, 1, 2, 1 / 2⟩, ⟨-1, 0, 0, 4, 4, 0⟩]

/-- The hypotheses of C135 are met: the exponential itself is an admissible library function, `pairG` has ordinary
shapes, and in the pixel at (11, 20) the first is kept and the second cut off. -/
theorem C135_witness (fma : Bool) : ExpOk Real.exp ∧
    (∀ g ∈ pairG, 0 ≤ g.fxx ∧ g.fxx ≤ 4 ∧ 0 ≤ g.fyy ∧ g.fyy ≤ 4 ∧ 4 * g.fxy ^ 2 ≤ g.fxx * g.fyy) ∧
    pairG.map (fun g => decide (36 < quad g (11 - g.xcen) (20 - g.ycen))) = [false, true] ∧
    pairG.map (fun g => quad g (11 - g.xcen) (20 - g.ycen)) = [1, 2084] ∧
    |residual fma Real.exp pairG 11 20 5 - (5 - (pairG.map fun g => value g (11 - g.xcen) (20 - g.ycen)).sum)| ≤
      4 / 2 ^ 18 + ((1 + 1 / 2 ^ 24) ^ 2 - 1) *
        (5 + (pairG.map fun g => |value g (11 - g.xcen) (20 - g.ycen)| + |g.amp| / 2 ^ 18).sum) := by
  have h1 : ExpOk Real.exp := by
    intro x _ _
    rw [sub_self, abs_zero]
    positivity
  have h2 : ∀ g ∈ pairG, 0 ≤ g.fxx ∧ g.fxx ≤ 4 ∧ 0 ≤ g.fyy ∧ g.fyy ≤ 4 ∧ 4 * g.fxy ^ 2 ≤ g.fxx * g.fyy := by
    intro g hg
    simp only [pairG, List.mem_cons, List.not_mem_nil, or_false] at hg
    rcases hg with rfl | rfl <;> norm_num
  refine ⟨h1, h2, by norm_num [pairG, quad], by norm_num [pairG, quad], ?_⟩
  refine (C135_residual fma Real.exp h1 pairG h2 11 20 5).trans (le_of_eq ?_)
  norm_num [pairG]

end Forcepho.Float

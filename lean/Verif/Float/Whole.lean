import Verif.Float.Build
import Verif.Float.Position
import Verif.Float.Sums
import Mathlib.Analysis.Calculus.MeanValue
import Mathlib.Analysis.SpecialFunctions.ExpDeriv
import Verif.Transform.Props

/-! # From a position on the sky to a pixel in single precision

The parts of the analysis put together: positions (`Position.lean`), shapes and amplitudes (`Build.lean`) and the
evaluation in a pixel (`Pixel.lean`). -/

set_option autoImplicit false

namespace Forcepho.Float

/-- The centre of an image gaussian (common_kernel.cc:66-67): centre of the source plus the offset of the gaussian of the
point-spread function, which is stored in single precision. -/
noncomputable def gaussCenter (fma : Bool) (k : Packed) (x o : ℝ × ℝ) : ℝ × ℝ :=
  (fl 24 ((center fma k x).1 + fl 24 o.1), fl 24 ((center fma k x).2 + fl 24 o.2))

/-! ## A gaussian depends little on its centre -/

/-- `q (5 + q)² ≤ 18 e^q`. -/
lemma poly_exp {q : ℝ} (hq : 0 ≤ q) : q * (5 + q) ^ 2 ≤ 18 * Real.exp q := by
  have h : 1 + q + q ^ 2 / 2 + q ^ 3 / 6 ≤ Real.exp q := by
    have := Real.sum_le_exp_of_nonneg hq 4
    simp only [Finset.sum_range_succ, Finset.sum_range_zero] at this
    norm_num [Nat.factorial] at this
    linarith
  have h3 : 0 ≤ q ^ 3 := by positivity
  nlinarith [sq_nonneg (q - 1), mul_nonneg hq (sq_nonneg (q - 1))]

/-- The derivative along a line is at most `4` pixels to the minus one, of the amplitude. -/
lemma slope_bound {q w tr dq dw : ℝ} {E : ℝ} (hq : 0 ≤ q) (hw0 : 0 ≤ w) (hw : w ≤ 8 * q) (htr0 : 0 ≤ tr) (htr : tr ≤ 8)
    (hE0 : 0 ≤ E) (hdq : dq ^ 2 ≤ 4 * w * E ^ 2) (hdw : dw ^ 2 ≤ 4 * 64 * w * E ^ 2) :
    |Real.exp (-q / 2) * (-dq / 2) * (1 + (w - tr) / 24) + Real.exp (-q / 2) * (dw / 24)| ≤ 4 * E := by
  have hs := Real.sqrt_nonneg w
  have hss := Real.sq_sqrt hw0
  have h1 : |dq| ≤ 2 * Real.sqrt w * E := by
    refine abs_le_of_sq_le_sq ?_ (by positivity)
    rw [mul_pow, mul_pow, hss]
    linarith
  have h2 : |dw| ≤ 16 * Real.sqrt w * E := by
    refine abs_le_of_sq_le_sq ?_ (by positivity)
    rw [mul_pow, mul_pow, hss]
    linarith
  have hp := Real.exp_pos (-q / 2)
  have h3 : |1 + (w - tr) / 24| ≤ 1 + w / 24 := by
    rw [abs_of_nonneg (by linarith)]
    linarith
  have hmain : Real.exp (-q / 2) * Real.sqrt w * (5 / 3 + w / 24) ≤ 4 := by
    refine le_of_pow_le_pow_left₀ (n := 2) (by norm_num) (by norm_num) ?_
    have e : (Real.exp (-q / 2) * Real.sqrt w * (5 / 3 + w / 24)) ^ 2 = Real.exp (-q) * (w * (5 / 3 + w / 24) ^ 2) := by
      rw [mul_pow, mul_pow, hss, ← Real.exp_nat_mul]
      have : ((2 : ℕ) : ℝ) * (-q / 2) = -q := by push_cast; ring
      rw [this]
      ring
    have h4 : w * (5 / 3 + w / 24) ^ 2 ≤ 8 * q * (5 / 3 + q / 3) ^ 2 := by
      refine mul_le_mul hw ?_ (by positivity) (by positivity)
      exact pow_le_pow_left₀ (by positivity) (by linarith) 2
    have h5 : 8 * q * (5 / 3 + q / 3) ^ 2 ≤ 16 * Real.exp q := by
      have := poly_exp hq
      nlinarith
    rw [e]
    have h6 := mul_le_mul_of_nonneg_left (h4.trans h5) (Real.exp_pos (-q)).le
    have h7 : Real.exp (-q) * (16 * Real.exp q) = 16 := by
      rw [mul_left_comm, ← Real.exp_add]
      simp
    rw [h7] at h6
    linarith
  have t := abs_add_le (Real.exp (-q / 2) * (-dq / 2) * (1 + (w - tr) / 24)) (Real.exp (-q / 2) * (dw / 24))
  have a1 : |Real.exp (-q / 2) * (-dq / 2) * (1 + (w - tr) / 24)| ≤ Real.exp (-q / 2) * (Real.sqrt w * E) * (1 + w / 24) := by
    rw [abs_mul, abs_mul, abs_of_pos hp, abs_div, abs_neg, abs_two]
    refine mul_le_mul (mul_le_mul_of_nonneg_left (by linarith) hp.le) h3 (abs_nonneg _) (by positivity)
  have a2 : |Real.exp (-q / 2) * (dw / 24)| ≤ Real.exp (-q / 2) * (2 / 3 * (Real.sqrt w * E)) := by
    rw [abs_mul, abs_of_pos hp, abs_div, abs_of_pos (show (0 : ℝ) < 24 by norm_num)]
    refine mul_le_mul_of_nonneg_left ?_ hp.le
    linarith
  have a3 := mul_le_mul_of_nonneg_right hmain hE0
  refine t.trans ((add_le_add a1 a2).trans (le_trans (le_of_eq ?_) a3))
  ring

/-- The gaussian with the correction for the extent of the pixel. -/
noncomputable def bump (a b c x y : ℝ) : ℝ :=
  Real.exp (-frm a b c x y / 2) * (1 + ((a * x + b * y) ^ 2 + (c * y + b * x) ^ 2 - a - c) / 24)

lemma bump_near {a b c : ℝ} (ha : 0 < a) (hd : 0 < a * c - b ^ 2) (htr : a + c ≤ 8) (x y x' y' : ℝ) :
    |bump a b c x' y' - bump a b c x y| ≤ 4 * (|x' - x| + |y' - y|) := by
  obtain ⟨dx, hdx⟩ : ∃ dx, dx = x' - x := ⟨_, rfl⟩
  obtain ⟨dy, hdy⟩ : ∃ dy, dy = y' - y := ⟨_, rfl⟩
  have hc : 0 < c := by
    by_contra h
    have := mul_nonneg ha.le (neg_nonneg.mpr (not_lt.mp h))
    nlinarith [sq_nonneg b]
  have hE : Real.sqrt (dx ^ 2 + dy ^ 2) ≤ |x' - x| + |y' - y| := by
    rw [← hdx, ← hdy]
    refine Real.sqrt_le_iff.mpr ⟨by positivity, ?_⟩
    have e1 := sq_abs dx
    have e2 := sq_abs dy
    nlinarith [mul_nonneg (abs_nonneg dx) (abs_nonneg dy)]
  have hEs := Real.sq_sqrt (show 0 ≤ dx ^ 2 + dy ^ 2 by positivity)
  have hE0 := Real.sqrt_nonneg (dx ^ 2 + dy ^ 2)
  set E := Real.sqrt (dx ^ 2 + dy ^ 2) with hEdef
  -- the form, the squared gradient and their derivatives along the line
  let X : ℝ → ℝ := fun s => x + s * dx
  let Y : ℝ → ℝ := fun s => y + s * dy
  have hX : ∀ s, HasDerivAt X dx s := fun s => by
    exact Transform.hdc (((hasDerivAt_id s).mul_const dx).const_add x) (fun _ => rfl) (by simp)
  have hY : ∀ s, HasDerivAt Y dy s := fun s => by
    exact Transform.hdc (((hasDerivAt_id s).mul_const dy).const_add y) (fun _ => rfl) (by simp)
  have hU : ∀ s, HasDerivAt (fun s => a * X s + b * Y s) (a * dx + b * dy) s := fun s =>
    ((hX s).const_mul a).add ((hY s).const_mul b)
  have hV : ∀ s, HasDerivAt (fun s => c * Y s + b * X s) (c * dy + b * dx) s := fun s =>
    ((hY s).const_mul c).add ((hX s).const_mul b)
  have hQ : ∀ s, HasDerivAt (fun s => frm a b c (X s) (Y s))
      (2 * ((a * X s + b * Y s) * dx + (c * Y s + b * X s) * dy)) s := fun s => by
    have h1 : HasDerivAt (fun s => (a * X s + b * Y s) * X s + (c * Y s + b * X s) * Y s) _ s :=
      ((hU s).mul (hX s)).add ((hV s).mul (hY s))
    refine Transform.hdc h1 (fun s => ?_) ?_
    · simp only [frm]; ring
    · ring
  have hW : ∀ s, HasDerivAt (fun s => (a * X s + b * Y s) ^ 2 + (c * Y s + b * X s) ^ 2)
      (2 * ((a * X s + b * Y s) * (a * dx + b * dy) + (c * Y s + b * X s) * (c * dy + b * dx))) s := fun s => by
    have h1 := ((hU s).pow 2).add ((hV s).pow 2)
    refine Transform.hdc h1 (fun s => ?_) ?_
    · simp
    · push_cast; ring
  have hB : ∀ s, HasDerivAt (fun s => bump a b c (X s) (Y s))
      (Real.exp (-frm a b c (X s) (Y s) / 2) * (-(2 * ((a * X s + b * Y s) * dx + (c * Y s + b * X s) * dy)) / 2) *
        (1 + ((a * X s + b * Y s) ^ 2 + (c * Y s + b * X s) ^ 2 - (a + c)) / 24) +
      Real.exp (-frm a b c (X s) (Y s) / 2) *
        (2 * ((a * X s + b * Y s) * (a * dx + b * dy) + (c * Y s + b * X s) * (c * dy + b * dx)) / 24)) s := fun s => by
    have h1 := (((hQ s).neg.div_const 2).exp).mul ((((hW s).sub_const (a + c)).div_const 24).const_add 1)
    refine Transform.hdc h1 (fun s => ?_) ?_
    · simp only [bump, Pi.mul_apply, Pi.neg_apply]
      ring_nf
    · simp only [Pi.neg_apply]
  have hb : ∀ s, |Real.exp (-frm a b c (X s) (Y s) / 2) *
        (-(2 * ((a * X s + b * Y s) * dx + (c * Y s + b * X s) * dy)) / 2) *
        (1 + ((a * X s + b * Y s) ^ 2 + (c * Y s + b * X s) ^ 2 - (a + c)) / 24) +
      Real.exp (-frm a b c (X s) (Y s) / 2) *
        (2 * ((a * X s + b * Y s) * (a * dx + b * dy) + (c * Y s + b * X s) * (c * dy + b * dx)) / 24)| ≤ 4 * E := fun s => by
    have hq := frm_pos ha hd (X s) (Y s)
    refine slope_bound hq (by positivity) ?_ (by positivity) htr hE0 ?_ ?_
    · have e : (a + c) * frm a b c (X s) (Y s) - ((a * X s + b * Y s) ^ 2 + (c * Y s + b * X s) ^ 2) =
          (a * c - b ^ 2) * (X s ^ 2 + Y s ^ 2) := by simp only [frm]; ring
      have h1 : 0 ≤ (a * c - b ^ 2) * (X s ^ 2 + Y s ^ 2) := mul_nonneg hd.le (by positivity)
      have h2 := mul_le_mul_of_nonneg_right htr hq
      linarith
    · rw [hEs]
      generalize a * X s + b * Y s = u
      generalize c * Y s + b * X s = v
      nlinarith [sq_nonneg (u * dy - v * dx)]
    · have hF : (a * dx + b * dy) ^ 2 + (c * dy + b * dx) ^ 2 ≤ 64 * E ^ 2 := by
        have hq' := frm_pos ha hd dx dy
        have e : (a + c) * frm a b c dx dy - ((a * dx + b * dy) ^ 2 + (c * dy + b * dx) ^ 2) =
          (a * c - b ^ 2) * (dx ^ 2 + dy ^ 2) := by simp only [frm]; ring
        have h1 : 0 ≤ (a * c - b ^ 2) * (dx ^ 2 + dy ^ 2) := mul_nonneg hd.le (by positivity)
        have h2 : frm a b c dx dy ≤ 8 * E ^ 2 := by
          have h3 := frm_pos (a := c) (b := -b) (c := a) hc (by linarith) dx dy
          have h4 := mul_le_mul_of_nonneg_right htr (show 0 ≤ E ^ 2 by positivity)
          have e2 : (a + c) * E ^ 2 - frm a b c dx dy = frm c (-b) a dx dy := by
            rw [hEs]; simp only [frm]; ring
          linarith
        have h5 := mul_le_mul_of_nonneg_right htr hq'
        linarith
      have hw0 : 0 ≤ (a * X s + b * Y s) ^ 2 + (c * Y s + b * X s) ^ 2 := by positivity
      have h6 := mul_le_mul_of_nonneg_left hF hw0
      generalize a * X s + b * Y s = u at *
      generalize c * Y s + b * X s = v at *
      generalize a * dx + b * dy = f at *
      generalize c * dy + b * dx = g at *
      nlinarith [sq_nonneg (u * g - v * f)]
  have hm := norm_image_sub_le_of_norm_deriv_le_segment_01' (f := fun s => bump a b c (X s) (Y s)) (C := 4 * E)
    (fun s _ => (hB s).hasDerivWithinAt) (fun s _ => hb s)
  have e1 : bump a b c (X 1) (Y 1) = bump a b c x' y' := by
    simp only [X, Y, hdx, hdy]
    congr 1 <;> ring
  have e0 : bump a b c (X 0) (Y 0) = bump a b c x y := by
    simp only [X, Y]
    congr 1 <;> ring
  simp only [e1, e0, Real.norm_eq_abs] at hm
  linarith

lemma trueValue_near (fma : Bool) (cs sn : ℝ → ℝ) (ht : TrigOk cs sn) (i : Parts) (hv : Valid i) (K : ℝ) (hK : K ≤ 2 ^ 10)
    (hc : Cond K i) (htr : (trueCov i)⁻¹.trace ≤ 8) (x y x' y' : ℝ) :
    |trueValue i x' y' - trueValue i x y| ≤ 4 * (|x' - x| + |y' - y|) * |trueAmp i| := by
  obtain ⟨a₀, b₀, c₀, e1, ha₀, hd₀, -⟩ := core fma cs sn ht i hv K hK hc
  have einv := inv_eq a₀ b₀ c₀
  rw [← e1] at einv
  have ha := div_pos (pos_c ha₀ hd₀) hd₀
  have hd : 0 < c₀ / (a₀ * c₀ - b₀ ^ 2) * (a₀ / (a₀ * c₀ - b₀ ^ 2)) - (-b₀ / (a₀ * c₀ - b₀ ^ 2)) ^ 2 := by
    rw [det_inv hd₀]; positivity
  generalize c₀ / (a₀ * c₀ - b₀ ^ 2) = a at *
  generalize -b₀ / (a₀ * c₀ - b₀ ^ 2) = b at *
  generalize a₀ / (a₀ * c₀ - b₀ ^ 2) = c at *
  have htr' : a + c ≤ 8 := by
    rw [einv] at htr
    simpa [Matrix.trace, Fin.sum_univ_two] using htr
  have e : ∀ x y, trueValue i x y = trueAmp i * bump a b c x y := fun x y => by
    rw [trueValue_eq i a b c _ _ einv, bump, mul_assoc]
  rw [e, e, ← mul_sub, abs_mul, mul_comm]
  exact mul_le_mul_of_nonneg_right (bump_near ha hd htr' x y x' y') (abs_nonneg _)

/-! ## The centre of an image gaussian -/

/-- C140 (centre): the centre of an image gaussian is the pixel of the proposed position plus the offset of the PSF
gaussian, up to `30 M t + 7 P` units of `2^-24`; `P` bounds the pixel the patch was packed at and the offset. -/
theorem C140_center (fma : Bool) (w : Affine) (z s x o : ℝ × ℝ) (t M P : ℝ)
    (hz1 : |z.1| ≤ 360) (hz2 : |z.2| ≤ 360) (hs1 : |s.1| ≤ t) (hs2 : |s.2| ≤ t) (hx1 : |x.1| ≤ t) (hx2 : |x.2| ≤ t)
    (ht : t ≤ 1) (h11 : |w.v11| ≤ M) (h12 : |w.v12| ≤ M) (h21 : |w.v21| ≤ M) (h22 : |w.v22| ≤ M)
    (hp1 : |(w.pixel (ssky z.1 s.1, ssky z.2 s.2)).1| ≤ P) (hp2 : |(w.pixel (ssky z.1 s.1, ssky z.2 s.2)).2| ≤ P)
    (ho1 : |o.1| ≤ P) (ho2 : |o.2| ≤ P) :
    |(gaussCenter fma (pack w.wcs z s) x o).1 - ((w.pixel (x.1 + z.1, x.2 + z.2)).1 + o.1)| ≤
      (30 * M * (t + 1 / 2 ^ 44) + 7 * P) / 2 ^ 24 ∧
    |(gaussCenter fma (pack w.wcs z s) x o).2 - ((w.pixel (x.1 + z.1, x.2 + z.2)).2 + o.2)| ≤
      (30 * M * (t + 1 / 2 ^ 44) + 7 * P) / 2 ^ 24 := by
  have e1 := ssky_near z.1 s.1 t hz1 hs1 ht
  have e2 := ssky_near z.2 s.2 t hz2 hs2 ht
  obtain ⟨c1, c2⟩ := C130_position fma w z s x t M P hz1 hz2 hs1 hs2 hx1 hx2 ht h11 h12 h21 h22 hp1 hp2
  set T := t + 1 / 2 ^ 44 with hT
  have htT : t ≤ T := by rw [hT]; norm_num
  obtain ⟨m1, d1⟩ := m_near z.1 s.1 x.1 T e1 (hx1.trans htT)
  obtain ⟨m2, d2⟩ := m_near z.2 s.2 x.2 T e2 (hx2.trans htT)
  have a1 := (coord_near fma w.v11 w.v12 _ _ _ _ M T _ P h11 h12 m1 m2 d1 d2 hp1).2
  have a2 := (coord_near fma w.v21 w.v22 _ _ _ _ M T _ P h21 h22 m1 m2 d1 d2 hp2).2
  have hM : 0 ≤ M := (abs_nonneg _).trans h11
  have ht0 : 0 ≤ T := (abs_nonneg _).trans e1
  have hMT : 0 ≤ M * T := mul_nonneg hM ht0
  have hP : 0 ≤ P := (abs_nonneg _).trans ho1
  have b1 : |(w.pixel (x.1 + z.1, x.2 + z.2)).1| ≤ 4 * (M * T) + P := by
    refine le_trans (le_of_eq (congrArg abs ?_)) a1
    simp only [Affine.pixel]
    ring
  have b2 : |(w.pixel (x.1 + z.1, x.2 + z.2)).2| ≤ 4 * (M * T) + P := by
    refine le_trans (le_of_eq (congrArg abs ?_)) a2
    simp only [Affine.pixel]
    ring
  have key : ∀ c pix o : ℝ, |c - pix| ≤ (25 * M * T + 3 * P) / 2 ^ 24 → |pix| ≤ 4 * (M * T) + P → |o| ≤ P →
      |fl 24 (c + fl 24 o) - (pix + o)| ≤ (30 * M * T + 7 * P) / 2 ^ 24 := by
    intro c pix o h1 h2 h3
    have f1 := fl_close 24 o o 0 P (by simp) h3
    have f2 := add_close h1 f1
    have f3 : |pix + o| ≤ 4 * (M * T) + 2 * P := (abs_add_le _ _).trans (by linarith)
    have f4 := fl_close 24 _ _ _ _ f2 f3
    refine f4.trans ?_
    norm_num at *
    linarith
  exact ⟨key _ _ _ c1 b1 ho1, key _ _ _ c2 b2 ho2⟩

/-- C140 (pixels): what is subtracted from a pixel is the true gaussian at the true place, up to `K / 2^16` of its
amplitude for the shape and `8` times the error of its centre for the place. -/
theorem C140_pixel (fma : Bool) (cs sn : ℝ → ℝ) (htg : TrigOk cs sn) (ex : ℝ → ℝ) (hex : ExpOk ex) (i : Parts) (hv : Valid i)
    (K : ℝ) (hK : K ≤ 2 ^ 10) (hc : Cond K i) (htr : (trueCov i)⁻¹.trace ≤ 8)
    (w : Affine) (z s x o : ℝ × ℝ) (t M P : ℝ)
    (hz1 : |z.1| ≤ 360) (hz2 : |z.2| ≤ 360) (hs1 : |s.1| ≤ t) (hs2 : |s.2| ≤ t) (hx1 : |x.1| ≤ t) (hx2 : |x.2| ≤ t)
    (ht : t ≤ 1) (h11 : |w.v11| ≤ M) (h12 : |w.v12| ≤ M) (h21 : |w.v21| ≤ M) (h22 : |w.v22| ≤ M)
    (hp1 : |(w.pixel (ssky z.1 s.1, ssky z.2 s.2)).1| ≤ P) (hp2 : |(w.pixel (ssky z.1 s.1, ssky z.2 s.2)).2| ≤ P)
    (ho1 : |o.1| ≤ P) (ho2 : |o.2| ≤ P) (xp yp r : ℝ) :
    ∃ C, |C - trueValue i (xp - ((w.pixel (x.1 + z.1, x.2 + z.2)).1 + o.1))
        (yp - ((w.pixel (x.1 + z.1, x.2 + z.2)).2 + o.2))| ≤
        (K / 2 ^ 16 + 8 * ((30 * M * (t + 1 / 2 ^ 44) + 7 * P) / 2 ^ 24)) * |trueAmp i| ∧
      (subOne fma ex xp yp r (buildGauss fma cs sn i (gaussCenter fma (pack w.wcs z s) x o).1
          (gaussCenter fma (pack w.wcs z s) x o).2) = fl 24 (r - C) ∨
        C = 0 ∧ subOne fma ex xp yp r (buildGauss fma cs sn i (gaussCenter fma (pack w.wcs z s) x o).1
          (gaussCenter fma (pack w.wcs z s) x o).2) = r) := by
  obtain ⟨c1, c2⟩ := C140_center fma w z s x o t M P hz1 hz2 hs1 hs2 hx1 hx2 ht h11 h12 h21 h22 hp1 hp2 ho1 ho2
  generalize (gaussCenter fma (pack w.wcs z s) x o).1 = gx at *
  generalize (gaussCenter fma (pack w.wcs z s) x o).2 = gy at *
  generalize (w.pixel (x.1 + z.1, x.2 + z.2)).1 + o.1 = px at *
  generalize (w.pixel (x.1 + z.1, x.2 + z.2)).2 + o.2 = py at *
  generalize (30 * M * (t + 1 / 2 ^ 44) + 7 * P) / 2 ^ 24 = ε at *
  obtain ⟨C, hC, hs⟩ := C138_pixel fma cs sn htg ex hex i hv K hK hc htr gx gy xp yp r
  refine ⟨C, ?_, hs⟩
  have hn := trueValue_near fma cs sn htg i hv K hK hc htr (xp - px) (yp - py) (xp - gx) (yp - gy)
  have r1 : |xp - gx - (xp - px)| ≤ ε := by
    rw [show xp - gx - (xp - px) = -(gx - px) by ring, abs_neg]
    exact c1
  have r2 : |yp - gy - (yp - py)| ≤ ε := by
    rw [show yp - gy - (yp - py) = -(gy - py) by ring, abs_neg]
    exact c2
  have hA := abs_nonneg (trueAmp i)
  have h4 : 4 * (|xp - gx - (xp - px)| + |yp - gy - (yp - py)|) * |trueAmp i| ≤ 8 * ε * |trueAmp i| :=
    mul_le_mul_of_nonneg_right (by linarith) hA
  have tri := abs_sub_le C (trueValue i (xp - gx) (yp - gy)) (trueValue i (xp - px) (yp - py))
  refine tri.trans ((add_le_add hC (hn.trans h4)).trans (le_of_eq ?_))
  ring

/-! ## The chi-square of a band -/

/-- A gaussian of the model in an exposure: its parts, the astrometry of the exposure, the reference of the patch, the
position the patch was packed with, the proposed position, the offset of the PSF gaussian. -/
structure Placed where
  parts : Parts
  w : Affine
  z : ℝ × ℝ
  s : ℝ × ℝ
  x : ℝ × ℝ
  o : ℝ × ℝ

/-- A pixel: its place, its data and its inverse error. -/
structure Pix where
  x : ℝ
  y : ℝ
  data : ℝ
  ierr : ℝ

/-- The image gaussian in the memory of the kernel (compute_gaussians_kernel.cc:143-166, common_kernel.cc:57-93). -/
noncomputable def Placed.gauss (fma : Bool) (cs sn : ℝ → ℝ) (g : Placed) : Gauss :=
  let c := gaussCenter fma (pack g.w.wcs g.z g.s) g.x g.o
  buildGauss fma cs sn g.parts c.1 c.2

/-- What the pixels of an exposure add to chi-square (compute_gaussians_kernel.cc:262-293). -/
noncomputable def expChi2 (fma : Bool) (cs sn ex : ℝ → ℝ) (gs : List Placed) (px : List Pix) : List (Fl 53) :=
  px.map fun p => ⟨chi2 (residual fma ex (gs.map (Placed.gauss fma cs sn)) p.x p.y p.data) p.data p.ierr⟩

/-- The chi-square of a band on the CPU (compute_gaussians_kernel.cc:239-310): exposure by exposure. -/
noncomputable def bandChi2 (fma : Bool) (cs sn ex : ℝ → ℝ) (es : List (List Placed × List Pix)) : ℝ :=
  (cpuSum (es.map fun e => expChi2 fma cs sn ex e.1 e.2) ⟨0⟩).val

/-! ### Specification -/

/-- The conditions of the theorems above. -/
def Placed.Ok (K t M P : ℝ) (g : Placed) : Prop :=
  Valid g.parts ∧ Cond K g.parts ∧ (trueCov g.parts)⁻¹.trace ≤ 8 ∧
  |g.z.1| ≤ 360 ∧ |g.z.2| ≤ 360 ∧ |g.s.1| ≤ t ∧ |g.s.2| ≤ t ∧ |g.x.1| ≤ t ∧ |g.x.2| ≤ t ∧
  |g.w.v11| ≤ M ∧ |g.w.v12| ≤ M ∧ |g.w.v21| ≤ M ∧ |g.w.v22| ≤ M ∧
  |(g.w.pixel (ssky g.z.1 g.s.1, ssky g.z.2 g.s.2)).1| ≤ P ∧ |(g.w.pixel (ssky g.z.1 g.s.1, ssky g.z.2 g.s.2)).2| ≤ P ∧
  |g.o.1| ≤ P ∧ |g.o.2| ≤ P

/-- The true gaussian at the true place. -/
noncomputable def Placed.value (g : Placed) (x y : ℝ) : ℝ :=
  trueValue g.parts (x - ((g.w.pixel (g.x.1 + g.z.1, g.x.2 + g.z.2)).1 + g.o.1))
    (y - ((g.w.pixel (g.x.1 + g.z.1, g.x.2 + g.z.2)).2 + g.o.2))

/-- The tolerance for a gaussian. -/
noncomputable def Placed.tol (K t M P : ℝ) (g : Placed) : ℝ :=
  (K / 2 ^ 16 + 8 * ((30 * M * (t + 1 / 2 ^ 44) + 7 * P) / 2 ^ 24)) * |trueAmp g.parts|

/-- The true residual of a pixel. -/
noncomputable def trueResidual (gs : List Placed) (p : Pix) : ℝ := p.data - (gs.map fun g => g.value p.x p.y).sum

/-- The tolerance for the residual of a pixel: that of the gaussians, and one rounding for each of them. -/
noncomputable def pixTol (K t M P : ℝ) (gs : List Placed) (p : Pix) : ℝ :=
  (gs.map fun g => g.tol K t M P).sum + ((1 + 1 / 2 ^ 24) ^ gs.length - 1) *
    (|p.data| + (gs.map fun g => |g.value p.x p.y| + g.tol K t M P).sum)

/-- The true contribution of a pixel to chi-square, less that of the data alone. -/
noncomputable def trueChi2 (gs : List Placed) (p : Pix) : ℝ := (trueResidual gs p ^ 2 - p.data ^ 2) * p.ierr ^ 2

/-- The tolerance for it. -/
noncomputable def chiTol (K t M P : ℝ) (gs : List Placed) (p : Pix) : ℝ :=
  (pixTol K t M P gs p * (2 * |trueResidual gs p| + pixTol K t M P gs p) +
    3 / 2 ^ 24 * (|trueResidual gs p| + pixTol K t M P gs p + |p.data|) ^ 2) * p.ierr ^ 2

/-! ### Proofs -/

/-- C140 (residual): the residual of a pixel after all gaussians at all places. -/
theorem C140_residual (fma : Bool) (cs sn : ℝ → ℝ) (htg : TrigOk cs sn) (ex : ℝ → ℝ) (hex : ExpOk ex) (K t M P : ℝ)
    (hK : K ≤ 2 ^ 10) (ht : t ≤ 1) (gs : List Placed) (h : ∀ g ∈ gs, g.Ok K t M P) (p : Pix) :
    |residual fma ex (gs.map (Placed.gauss fma cs sn)) p.x p.y p.data - trueResidual gs p| ≤ pixTol K t M P gs p := by
  refine residual_general fma ex (Placed.gauss fma cs sn) (fun g => g.value p.x p.y) (fun g => g.tol K t M P) p.x p.y gs ?_
    p.data
  intro g hg r
  obtain ⟨a1, a2, a3, b1, b2, b3, b4, b5, b6, c1, c2, c3, c4, d1, d2, d3, d4⟩ := h g hg
  exact C140_pixel fma cs sn htg ex hex g.parts a1 K hK a2 a3 g.w g.z g.s g.x g.o t M P b1 b2 b3 b4 b5 b6 ht c1 c2 c3 c4 d1
    d2 d3 d4 p.x p.y r

lemma chi_near {r R δ d ie : ℝ} (h : |r - R| ≤ δ) :
    |chi2 r d ie - (R ^ 2 - d ^ 2) * ie ^ 2| ≤
      (δ * (2 * |R| + δ) + 3 / 2 ^ 24 * (|R| + δ + |d|) ^ 2) * ie ^ 2 := by
  have h1 := C135_chi2 r d ie
  have hδ : 0 ≤ δ := (abs_nonneg _).trans h
  have hr : |r| ≤ |R| + δ := by
    have := abs_add_le (r - R) R
    rw [sub_add_cancel] at this
    linarith
  have h2 : |(r ^ 2 - d ^ 2) * ie ^ 2 - (R ^ 2 - d ^ 2) * ie ^ 2| ≤ δ * (2 * |R| + δ) * ie ^ 2 := by
    have e : (r ^ 2 - d ^ 2) * ie ^ 2 - (R ^ 2 - d ^ 2) * ie ^ 2 = (r - R) * (r + R) * ie ^ 2 := by ring
    rw [e, abs_mul, abs_mul, abs_of_nonneg (sq_nonneg ie)]
    refine mul_le_mul_of_nonneg_right ?_ (sq_nonneg ie)
    refine mul_le_mul h ?_ (abs_nonneg _) hδ
    have := abs_add_le r R
    linarith
  have h3 : 3 / 2 ^ 24 * ((|r| + |d|) * |ie|) ^ 2 ≤ 3 / 2 ^ 24 * (|R| + δ + |d|) ^ 2 * ie ^ 2 := by
    rw [mul_pow, sq_abs, ← mul_assoc]
    refine mul_le_mul_of_nonneg_right (mul_le_mul_of_nonneg_left ?_ (by positivity)) (sq_nonneg ie)
    exact pow_le_pow_left₀ (by positivity) (by linarith) 2
  have t := abs_sub_le (chi2 r d ie) ((r ^ 2 - d ^ 2) * ie ^ 2) ((R ^ 2 - d ^ 2) * ie ^ 2)
  refine t.trans ((add_le_add (h1.trans h3) h2).trans (le_of_eq ?_))
  ring

lemma pix_chi2 (fma : Bool) (cs sn : ℝ → ℝ) (htg : TrigOk cs sn) (ex : ℝ → ℝ) (hex : ExpOk ex) (K t M P : ℝ)
    (hK : K ≤ 2 ^ 10) (ht : t ≤ 1) (gs : List Placed) (h : ∀ g ∈ gs, g.Ok K t M P) (p : Pix) :
    |chi2 (residual fma ex (gs.map (Placed.gauss fma cs sn)) p.x p.y p.data) p.data p.ierr - trueChi2 gs p| ≤
      chiTol K t M P gs p :=
  chi_near (C140_residual fma cs sn htg ex hex K t M P hK ht gs h p)

/-- Sums of close terms are close. -/
lemma sums_near {α : Type} (l : List α) (f g e : α → ℝ) (h : ∀ a ∈ l, |f a - g a| ≤ e a) :
    |(l.map f).sum - (l.map g).sum| ≤ (l.map e).sum ∧ (l.map fun a => |f a|).sum ≤ (l.map fun a => |g a| + e a).sum := by
  induction l with
  | nil => simp
  | cons a t ih =>
    obtain ⟨h1, h2⟩ := ih fun x hx => h x (by simp [hx])
    have h0 := h a (by simp)
    simp only [List.map_cons, List.sum_cons]
    refine ⟨add_close h0 h1, add_le_add ?_ h2⟩
    have := abs_add_le (f a - g a) (g a)
    rw [sub_add_cancel] at this
    linarith

/-- The pixels of all exposures, each with the gaussians of its exposure. -/
def allPix (es : List (List Placed × List Pix)) : List (List Placed × Pix) :=
  (es.map fun e => e.2.map fun p => (e.1, p)).flatten

lemma flat_chi2 (fma : Bool) (cs sn ex : ℝ → ℝ) (es : List (List Placed × List Pix)) (f : ℝ → ℝ) :
    ((es.map fun e => expChi2 fma cs sn ex e.1 e.2).flatten.map fun x => f x.val) =
      (allPix es).map fun a => f (chi2 (residual fma ex (a.1.map (Placed.gauss fma cs sn)) a.2.x a.2.y a.2.data) a.2.data
        a.2.ierr) := by
  induction es with
  | nil => rfl
  | cons e t ih =>
    simp only [List.map_cons, List.flatten_cons, List.map_append, ih, allPix]
    simp [expChi2, List.map_map, Function.comp_def]

/-- C140 (chi-square): the chi-square of a band that the CPU returns is the true one, for the true gaussians at the true
places, up to the tolerances of the pixels and, for `n` pixels, `2 n` units of `2^-53` of the sum of the sizes. -/
theorem C140_chi2 (fma : Bool) (cs sn : ℝ → ℝ) (htg : TrigOk cs sn) (ex : ℝ → ℝ) (hex : ExpOk ex) (K t M P : ℝ)
    (hK : K ≤ 2 ^ 10) (ht : t ≤ 1) (es : List (List Placed × List Pix)) (h : ∀ e ∈ es, ∀ g ∈ e.1, g.Ok K t M P)
    (n : Nat) (hn : (es.map fun e => e.2.length).sum = n) (hn' : n ≤ 2 ^ 53) :
    |bandChi2 fma cs sn ex es - (es.map fun e => (e.2.map fun p => trueChi2 e.1 p).sum).sum| ≤
      (es.map fun e => (e.2.map fun p => chiTol K t M P e.1 p).sum).sum +
      2 * n / 2 ^ 53 * (es.map fun e => (e.2.map fun p => |trueChi2 e.1 p| + chiTol K t M P e.1 p).sum).sum := by
  have hall : ∀ f : List Placed → Pix → ℝ, (es.map fun e => (e.2.map fun p => f e.1 p).sum).sum =
      ((allPix es).map fun a => f a.1 a.2).sum := by
    intro f
    clear hn h
    induction es with
    | nil => rfl
    | cons e t ih =>
      simp only [List.map_cons, List.sum_cons, allPix, List.flatten_cons, List.map_append, List.sum_append] at ih ⊢
      rw [ih]
      simp [List.map_map, Function.comp_def]
  have hlen : (es.map fun e => expChi2 fma cs sn ex e.1 e.2).flatten.length = n := by
    rw [List.length_flatten, List.map_map, ← hn]
    congr 1
    refine List.map_congr_left fun e _ => ?_
    simp [expChi2]
  have hmem : ∀ a ∈ allPix es, ∀ g ∈ a.1, g.Ok K t M P := by
    intro a ha g hg
    obtain ⟨l, hl, hal⟩ := List.mem_flatten.mp ha
    obtain ⟨e, he, rfl⟩ := List.mem_map.mp hl
    obtain ⟨p, -, rfl⟩ := List.mem_map.mp hal
    exact h e he g hg
  have hpix : ∀ a ∈ allPix es, |chi2 (residual fma ex (a.1.map (Placed.gauss fma cs sn)) a.2.x a.2.y a.2.data) a.2.data
      a.2.ierr - trueChi2 a.1 a.2| ≤ chiTol K t M P a.1 a.2 := fun a ha =>
    pix_chi2 fma cs sn htg ex hex K t M P hK ht a.1 (hmem a ha) a.2
  obtain ⟨s1, s2⟩ := sums_near (allPix es) _ _ _ hpix
  have hc := (cpu_close (es.map fun e => expChi2 fma cs sn ex e.1 e.2) ⟨0⟩ 0 0 0 close_zero).1
  rw [hlen] at hc
  simp only [zero_add, total, size] at hc
  have f1 := flat_chi2 fma cs sn ex es (fun x => x)
  have f2 := flat_chi2 fma cs sn ex es (fun x => |x|)
  rw [f1, f2] at hc
  have g1 := growth 53 n hn'
  rw [hall trueChi2, hall (chiTol K t M P), hall fun gs p => |trueChi2 gs p| + chiTol K t M P gs p]
  have hsz : 0 ≤ ((allPix es).map fun a => |chi2 (residual fma ex (a.1.map (Placed.gauss fma cs sn)) a.2.x a.2.y a.2.data)
      a.2.data a.2.ierr|).sum := List.sum_nonneg (by
    intro x hx
    obtain ⟨y, -, rfl⟩ := List.mem_map.mp hx
    exact abs_nonneg _)
  have h3 : |bandChi2 fma cs sn ex es - ((allPix es).map fun a => chi2 (residual fma ex (a.1.map (Placed.gauss fma cs sn))
      a.2.x a.2.y a.2.data) a.2.data a.2.ierr).sum| ≤ 2 * n / 2 ^ 53 * ((allPix es).map fun a => |trueChi2 a.1 a.2| +
        chiTol K t M P a.1 a.2).sum := by
    refine hc.trans ((mul_le_mul_of_nonneg_right g1 hsz).trans ?_)
    exact mul_le_mul_of_nonneg_left s2 (by positivity)
  have tri := abs_sub_le (bandChi2 fma cs sn ex es) ((allPix es).map fun a => chi2 (residual fma ex (a.1.map
      (Placed.gauss fma cs sn)) a.2.x a.2.y a.2.data) a.2.data a.2.ierr).sum ((allPix es).map fun a => trueChi2 a.1 a.2).sum
  refine tri.trans ((add_le_add h3 s1).trans (le_of_eq ?_))
  ring

/-! ### A case -/

/-- The inclined gaussian, a pixel to the right of the source it was packed with, with pixels of `1/36` arc seconds. -/
noncomputable def placedInclined : Placed :=
  ⟨inclined, ⟨(1024 - 131072 * 150, 1024), 131072, 0, 0, 131072⟩, (150, 0), (0, 0), (1 / 2 ^ 17, 0), (1 / 4, 0)⟩

/-- C140 (a case): the hypotheses are met by the inclined gaussian on a detector of `4096` pixels; it is at `1025.25`; its
centre in the kernel is right to `1/500` pixel. -/
theorem C140_witness (fma : Bool) : placedInclined.Ok 34 (1 / 1024) 131072 4096 ∧ (∀ x y : ℝ, placedInclined.value x y =
      trueValue inclined (x - 1025.25) (y - 1024)) ∧
    |(gaussCenter fma (pack placedInclined.w.wcs placedInclined.z placedInclined.s) placedInclined.x placedInclined.o).1 -
      1025.25| ≤ 1 / 500 := by
  obtain ⟨-, -, h3, h4, h5, -⟩ := C138_witness fma 0 0 0 0 0
  have d150 : fl 53 150 = 150 := by
    have := fl_rep 53 (by norm_num) 150 ⟨150, 0, by norm_num, by norm_num⟩
    exact this
  have d0 : fl 53 0 = 0 := by rw [fl, if_pos rfl]
  have e1 : placedInclined.w.pixel (ssky placedInclined.z.1 placedInclined.s.1, ssky placedInclined.z.2 placedInclined.s.2) =
      (1024, 1024) := by
    simp only [placedInclined, ssky, zero_add, add_zero, d150, d0, Affine.pixel]
    norm_num
  have e2 : placedInclined.w.pixel (placedInclined.x.1 + placedInclined.z.1, placedInclined.x.2 + placedInclined.z.2) =
      (1025, 1024) := by
    simp only [placedInclined, Affine.pixel]
    norm_num
  have ok : placedInclined.Ok 34 (1 / 1024) 131072 4096 := by
    refine ⟨h3, h4, h5, ?_⟩
    rw [e1]
    norm_num [placedInclined]
  refine ⟨ok, ?_, ?_⟩
  · intro x y
    simp only [Placed.value, e2]
    norm_num [placedInclined]
  · obtain ⟨-, -, -, b1, b2, b3, b4, b5, b6, c1, c2, c3, c4, d1, d2, d3, d4⟩ := ok
    have := (C140_center fma placedInclined.w placedInclined.z placedInclined.s placedInclined.x placedInclined.o _ _ _ b1 b2
      b3 b4 b5 b6 (by norm_num) c1 c2 c3 c4 d1 d2 d3 d4).1
    rw [e2] at this
    have e3 : (1025 : ℝ) + placedInclined.o.1 = 1025.25 := by norm_num [placedInclined]
    rw [e3] at this
    exact this.trans (by norm_num)

end Forcepho.Float

import Verif.Float.Basic

/-! # Positions in single precision

How a position on the sky reaches the kernel: `zerocoords` subtracts a reference from the coordinates in double
precision (patch.py:446-455), `_pack_astrometry` stores the position at which the patch was packed and its pixel in
single precision (patch.py:314-338, `meta_dtype`), the proposal holds single precision numbers (proposal.py:229-243), and
the kernel computes the pixel in single precision (compute_gaussians_kernel.cc:59-67, 92-95, matrix22.cc:189-193,
common_kernel.cc:66-67, 191-192).  The calls of the WCS library are taken to be exact before their result is stored. -/

set_option autoImplicit false
set_option linter.unusedSectionVars false

namespace Forcepho.Float

/-- What the WCS tells of a place: pixel of the packed position and the derivatives of the pixel. -/
structure Local where
  pix : ℝ × ℝ
  v11 : ℝ
  v12 : ℝ
  v21 : ℝ
  v22 : ℝ

/-- The numbers stored for a source in an exposure. -/
structure Packed where
  crval : ℝ × ℝ
  crpix : ℝ × ℝ
  v11 : ℝ
  v12 : ℝ
  v21 : ℝ
  v22 : ℝ

/-- `source.ra -= zero[0]` (patch.py:454). -/
noncomputable def zeroed (z a : ℝ) : ℝ := fl 53 (a - z)

/-- `s.ra + ra0` (patch.py:332). -/
noncomputable def ssky (z s : ℝ) : ℝ := fl 53 (s + z)

/-- `_pack_astrometry` for one source and exposure (patch.py:332-338); `w` is what the WCS says of a position. -/
noncomputable def pack (w : ℝ × ℝ → Local) (z s : ℝ × ℝ) : Packed :=
  let sky := (ssky z.1 s.1, ssky z.2 s.2)
  { crval := (fl 24 (fl 53 (sky.1 - z.1)), fl 24 (fl 53 (sky.2 - z.2)))
    crpix := (fl 24 (w sky).pix.1, fl 24 (w sky).pix.2)
    v11 := fl 24 (w sky).v11
    v12 := fl 24 (w sky).v12
    v21 := fl 24 (w sky).v21
    v22 := fl 24 (w sky).v22 }

/-- One element of `Av` (matrix22.cc:191-192), with a fused multiplication and addition on the GPU. -/
noncomputable def av (fma : Bool) (a b v w : ℝ) : ℝ :=
  if fma then fl 24 (a * v + fl 24 (b * w)) else fl 24 (fl 24 (a * v) + fl 24 (b * w))

/-- The centre of a source in pixels (compute_gaussians_kernel.cc:66-67, 92-95); `x` is the position in the proposal. -/
noncomputable def center (fma : Bool) (k : Packed) (x : ℝ × ℝ) : ℝ × ℝ :=
  let m0 := fl 24 (fl 24 x.1 - k.crval.1)
  let m1 := fl 24 (fl 24 x.2 - k.crval.2)
  (fl 24 (av fma k.v11 k.v12 m0 m1 + k.crpix.1), fl 24 (av fma k.v21 k.v22 m0 m1 + k.crpix.2))

/-- The distance of a pixel from the centre of a gaussian of the point-spread function at `o` from the source, in one
coordinate (common_kernel.cc:66-67, 191-192). -/
noncomputable def offset (c o xp : ℝ) : ℝ := fl 24 (fl 24 xp - fl 24 (c + fl 24 o))

/-! ## Specification -/

/-- An affine map from the sky to pixels. -/
structure Affine where
  p : ℝ × ℝ
  v11 : ℝ
  v12 : ℝ
  v21 : ℝ
  v22 : ℝ

/-- The pixel of a position. -/
def Affine.pixel (a : Affine) (s : ℝ × ℝ) : ℝ × ℝ :=
  (a.p.1 + a.v11 * s.1 + a.v12 * s.2, a.p.2 + a.v21 * s.1 + a.v22 * s.2)

/-- Its WCS. -/
def Affine.wcs (a : Affine) (s : ℝ × ℝ) : Local := ⟨a.pixel s, a.v11, a.v12, a.v21, a.v22⟩

/-! ## Errors -/

lemma ssky_near (z s t : ℝ) (hz : |z| ≤ 360) (hs : |s| ≤ t) (ht : t ≤ 1) : |ssky z s - z| ≤ t + 1 / 2 ^ 44 := by
  have h := fl_err 53 (s + z)
  have h1 : |s + z| ≤ 361 := (abs_add_le s z).trans (by linarith)
  have h2 : |s + z| / 2 ^ 53 ≤ 1 / 2 ^ 44 := by
    rw [div_le_iff₀ (by positivity)]
    refine h1.trans ?_
    norm_num
  have e : ssky z s - z = (fl 53 (s + z) - (s + z)) + s := by
    rw [ssky]
    ring
  rw [e]
  refine (abs_add_le _ _).trans ?_
  linarith

lemma m_near (z s x t : ℝ) (hs : |ssky z s - z| ≤ t) (hx : |x| ≤ t) :
    |fl 24 (fl 24 x - fl 24 (fl 53 (ssky z s - z))) - (x - (ssky z s - z))| ≤ 4.02 / 2 ^ 24 * t ∧
    |x - (ssky z s - z)| ≤ 2 * t := by
  have ht : 0 ≤ t := (abs_nonneg _).trans hx
  set c := ssky z s - z
  have h1 := fl_close 24 x x 0 t (by simp) hx
  have h2 := fl_close 53 c c 0 t (by simp) hs
  have h3 := fl_close 24 (fl 53 c) c _ t h2 hs
  have h4 := sub_close h1 h3
  have h5 : |x - c| ≤ 2 * t := (abs_sub x c).trans (by linarith)
  have h6 := fl_close 24 _ _ _ _ h4 h5
  refine ⟨h6.trans ?_, h5⟩
  norm_num at *
  linarith

lemma av_near (fma : Bool) (a b m0 m1 d0 d1 M t : ℝ) (ha : |a| ≤ M) (hb : |b| ≤ M)
    (h0 : |m0 - d0| ≤ 4.02 / 2 ^ 24 * t) (h1 : |m1 - d1| ≤ 4.02 / 2 ^ 24 * t) (hd0 : |d0| ≤ 2 * t) (hd1 : |d1| ≤ 2 * t) :
    |av fma (fl 24 a) (fl 24 b) m0 m1 - (a * d0 + b * d1)| ≤ 20.3 / 2 ^ 24 * (M * t) ∧
    |a * d0 + b * d1| ≤ 4 * (M * t) := by
  have hM : 0 ≤ M := (abs_nonneg _).trans ha
  have ht : 0 ≤ t := by
    have := (abs_nonneg _).trans hd0
    linarith
  have hMt : 0 ≤ M * t := mul_nonneg hM ht
  have prod : ∀ v m d : ℝ, |v| ≤ M → |m - d| ≤ 4.02 / 2 ^ 24 * t → |d| ≤ 2 * t →
      |fl 24 v * m - v * d| ≤ 6.03 / 2 ^ 24 * (M * t) ∧ |v * d| ≤ 2 * (M * t) ∧
      |fl 24 (fl 24 v * m) - v * d| ≤ 8.05 / 2 ^ 24 * (M * t) := by
    intro v m d hv hm hd
    have h1 := fl_close 24 v v 0 M (by simp) hv
    have h2 := mul_close h1 hm hv hd
    have h3 : |v * d| ≤ 2 * (M * t) := by
      rw [abs_mul]
      have := mul_le_mul hv hd (abs_nonneg _) hM
      linarith
    have h4 : |fl 24 v * m - v * d| ≤ 6.03 / 2 ^ 24 * (M * t) := by
      refine h2.trans ?_
      have : (0 + (M + 0) / 2 ^ 24) * (2 * t + 4.02 / 2 ^ 24 * t) + M * (4.02 / 2 ^ 24 * t) =
          (1 / 2 ^ 24 * (2 + 4.02 / 2 ^ 24) + 4.02 / 2 ^ 24) * (M * t) := by ring
      rw [this]
      refine mul_le_mul_of_nonneg_right ?_ hMt
      norm_num
    have h5 := fl_close 24 _ _ _ _ h4 h3
    refine ⟨h4, h3, h5.trans ?_⟩
    norm_num at *
    linarith
  obtain ⟨p1, p2, p3⟩ := prod a m0 d0 ha h0 hd0
  obtain ⟨q1, q2, q3⟩ := prod b m1 d1 hb h1 hd1
  have hsum : |a * d0 + b * d1| ≤ 4 * (M * t) := (abs_add_le _ _).trans (by linarith)
  refine ⟨?_, hsum⟩
  rw [av]
  split
  · have h := add_close p1 q3
    have h' := fl_close 24 _ _ _ _ h hsum
    refine h'.trans ?_
    norm_num at *
    linarith
  · have h := add_close p3 q3
    have h' := fl_close 24 _ _ _ _ h hsum
    refine h'.trans ?_
    norm_num at *
    linarith

lemma coord_near (fma : Bool) (a b m0 m1 d0 d1 M t c P : ℝ) (ha : |a| ≤ M) (hb : |b| ≤ M)
    (h0 : |m0 - d0| ≤ 4.02 / 2 ^ 24 * t) (h1 : |m1 - d1| ≤ 4.02 / 2 ^ 24 * t) (hd0 : |d0| ≤ 2 * t) (hd1 : |d1| ≤ 2 * t)
    (hc : |c| ≤ P) :
    |fl 24 (av fma (fl 24 a) (fl 24 b) m0 m1 + fl 24 c) - (a * d0 + b * d1 + c)| ≤
      25 / 2 ^ 24 * (M * t) + 3 / 2 ^ 24 * P ∧ |a * d0 + b * d1 + c| ≤ 4 * (M * t) + P := by
  have hM : 0 ≤ M := (abs_nonneg _).trans ha
  have ht : 0 ≤ t := by
    have := (abs_nonneg _).trans hd0
    linarith
  have hMt : 0 ≤ M * t := mul_nonneg hM ht
  have hP : 0 ≤ P := (abs_nonneg _).trans hc
  obtain ⟨h, hs⟩ := av_near fma a b m0 m1 d0 d1 M t ha hb h0 h1 hd0 hd1
  have h2 := fl_close 24 c c 0 P (by simp) hc
  have h3 := add_close h h2
  have h4 : |a * d0 + b * d1 + c| ≤ 4 * (M * t) + P := (abs_add_le _ _).trans (by linarith)
  have h5 := fl_close 24 _ _ _ _ h3 h4
  refine ⟨h5.trans ?_, h4⟩
  norm_num at *
  linarith

/-- C130 (rounding). The rounding that is modelled is to the nearest number with the given number of bits, numbers with
that many bits are left alone, and the error is at most half a unit in the last place. -/
theorem C130_rounding (p : Nat) (hp : 1 ≤ p) (x : ℝ) :
    Rep p (fl p x) ∧ (∀ y, Rep p y → |fl p x - x| ≤ |y - x|) ∧ (Rep p x → fl p x = x) ∧
    |fl p x - x| ≤ |x| / 2 ^ p :=
  ⟨fl_isRep p hp x, fun y hy => fl_nearest p hp x y hy, fl_rep p hp x, fl_err p x⟩

/-- C130 (positions). Let a patch be packed with a source at `s` from the reference `z`, and let the sampler propose the
position `x` from the reference.  If both are within `t` degrees of it, the derivatives of the pixel are at most `M`
pixels for each degree and the packed source is at most `P` pixels from the corner, the position the kernel computes is
that of the proposed sky position up to `25 M t + 3 P` units of `2^-24`, with or without fused operations. -/
theorem C130_position (fma : Bool) (w : Affine) (z s x : ℝ × ℝ) (t M P : ℝ)
    (hz1 : |z.1| ≤ 360) (hz2 : |z.2| ≤ 360) (hs1 : |s.1| ≤ t) (hs2 : |s.2| ≤ t) (hx1 : |x.1| ≤ t) (hx2 : |x.2| ≤ t)
    (ht : t ≤ 1) (h11 : |w.v11| ≤ M) (h12 : |w.v12| ≤ M) (h21 : |w.v21| ≤ M) (h22 : |w.v22| ≤ M)
    (hp1 : |(w.pixel (ssky z.1 s.1, ssky z.2 s.2)).1| ≤ P) (hp2 : |(w.pixel (ssky z.1 s.1, ssky z.2 s.2)).2| ≤ P) :
    |(center fma (pack w.wcs z s) x).1 - (w.pixel (x.1 + z.1, x.2 + z.2)).1| ≤
      (25 * M * (t + 1 / 2 ^ 44) + 3 * P) / 2 ^ 24 ∧
    |(center fma (pack w.wcs z s) x).2 - (w.pixel (x.1 + z.1, x.2 + z.2)).2| ≤
      (25 * M * (t + 1 / 2 ^ 44) + 3 * P) / 2 ^ 24 := by
  have e1 := ssky_near z.1 s.1 t hz1 hs1 ht
  have e2 := ssky_near z.2 s.2 t hz2 hs2 ht
  set T := t + 1 / 2 ^ 44 with hT
  have htT : t ≤ T := by rw [hT]; norm_num
  obtain ⟨m1, d1⟩ := m_near z.1 s.1 x.1 T e1 (hx1.trans htT)
  obtain ⟨m2, d2⟩ := m_near z.2 s.2 x.2 T e2 (hx2.trans htT)
  have a1 := (coord_near fma w.v11 w.v12 _ _ _ _ M T _ P h11 h12 m1 m2 d1 d2 hp1).1
  have a2 := (coord_near fma w.v21 w.v22 _ _ _ _ M T _ P h21 h22 m1 m2 d1 d2 hp2).1
  constructor
  · have e : w.v11 * (x.1 - (ssky z.1 s.1 - z.1)) + w.v12 * (x.2 - (ssky z.2 s.2 - z.2)) +
        (w.pixel (ssky z.1 s.1, ssky z.2 s.2)).1 = (w.pixel (x.1 + z.1, x.2 + z.2)).1 := by
      simp only [Affine.pixel]
      ring
    rw [e] at a1
    refine le_trans ?_ (a1.trans (le_of_eq (by ring)))
    exact le_rfl
  · have e : w.v21 * (x.1 - (ssky z.1 s.1 - z.1)) + w.v22 * (x.2 - (ssky z.2 s.2 - z.2)) +
        (w.pixel (ssky z.1 s.1, ssky z.2 s.2)).2 = (w.pixel (x.1 + z.1, x.2 + z.2)).2 := by
      simp only [Affine.pixel]
      ring
    rw [e] at a2
    refine le_trans ?_ (a2.trans (le_of_eq (by ring)))
    exact le_rfl

/-- C130 (offsets). The distance of a pixel from a gaussian of the point-spread function, from which the kernel computes
the pixel's value, is right up to `34 M t + 12 P` units of `2^-24` if pixel and gaussian are also at most `P` pixels from
the corner and from the source. -/
theorem C130_offset (fma : Bool) (w : Affine) (z s x : ℝ × ℝ) (t M P : ℝ)
    (hz1 : |z.1| ≤ 360) (hz2 : |z.2| ≤ 360) (hs1 : |s.1| ≤ t) (hs2 : |s.2| ≤ t) (hx1 : |x.1| ≤ t) (hx2 : |x.2| ≤ t)
    (ht : t ≤ 1) (h11 : |w.v11| ≤ M) (h12 : |w.v12| ≤ M) (h21 : |w.v21| ≤ M) (h22 : |w.v22| ≤ M)
    (hp1 : |(w.pixel (ssky z.1 s.1, ssky z.2 s.2)).1| ≤ P) (hp2 : |(w.pixel (ssky z.1 s.1, ssky z.2 s.2)).2| ≤ P)
    (o xp : ℝ × ℝ) (ho1 : |o.1| ≤ P) (ho2 : |o.2| ≤ P) (hxp1 : |xp.1| ≤ P) (hxp2 : |xp.2| ≤ P) :
    |offset (center fma (pack w.wcs z s) x).1 o.1 xp.1 - (xp.1 - ((w.pixel (x.1 + z.1, x.2 + z.2)).1 + o.1))| ≤
      (34 * M * (t + 1 / 2 ^ 44) + 12 * P) / 2 ^ 24 ∧
    |offset (center fma (pack w.wcs z s) x).2 o.2 xp.2 - (xp.2 - ((w.pixel (x.1 + z.1, x.2 + z.2)).2 + o.2))| ≤
      (34 * M * (t + 1 / 2 ^ 44) + 12 * P) / 2 ^ 24 := by
  have e1 := ssky_near z.1 s.1 t hz1 hs1 ht
  have e2 := ssky_near z.2 s.2 t hz2 hs2 ht
  obtain ⟨c1, c2⟩ := C130_position fma w z s x t M P hz1 hz2 hs1 hs2 hx1 hx2 ht h11 h12 h21 h22 hp1 hp2
  set T := t + 1 / 2 ^ 44 with hT
  have htT : t ≤ T := by rw [hT]; norm_num
  obtain ⟨m1, d1⟩ := m_near z.1 s.1 x.1 T e1 (hx1.trans htT)
  obtain ⟨m2, d2⟩ := m_near z.2 s.2 x.2 T e2 (hx2.trans htT)
  have a1 := (coord_near fma w.v11 w.v12 _ _ _ _ M T _ P h11 h12 m1 m2 d1 d2 hp1).2
  have a2 := (coord_near fma w.v21 w.v22 _ _ _ _ M T _ P h21 h22 m1 m2 d1 d2 hp2).2
  have hM : 0 ≤ M := (abs_nonneg _).trans h11
  have ht0 : 0 ≤ T := (abs_nonneg _).trans e1
  have hMT : 0 ≤ M * T := mul_nonneg hM ht0
  have hP : 0 ≤ P := (abs_nonneg _).trans ho1
  have b1 : |(w.pixel (x.1 + z.1, x.2 + z.2)).1| ≤ 4 * (M * T) + P := by
    refine le_trans (le_of_eq (congrArg abs ?_)) a1
    simp only [Affine.pixel]
    ring
  have b2 : |(w.pixel (x.1 + z.1, x.2 + z.2)).2| ≤ 4 * (M * T) + P := by
    refine le_trans (le_of_eq (congrArg abs ?_)) a2
    simp only [Affine.pixel]
    ring
  have key : ∀ c pix o xp : ℝ, |c - pix| ≤ (25 * M * T + 3 * P) / 2 ^ 24 → |pix| ≤ 4 * (M * T) + P → |o| ≤ P → |xp| ≤ P →
      |offset c o xp - (xp - (pix + o))| ≤ (34 * M * T + 12 * P) / 2 ^ 24 := by
    intro c pix o xp hc hpix ho hxp
    have k1 := fl_close 24 o o 0 P (by simp) ho
    have k2 := add_close hc k1
    have k3 : |pix + o| ≤ 4 * (M * T) + 2 * P := (abs_add_le _ _).trans (by linarith)
    have k4 := fl_close 24 _ _ _ _ k2 k3
    have k5 := fl_close 24 xp xp 0 P (by simp) hxp
    have k6 := sub_close k5 k4
    have k7 : |xp - (pix + o)| ≤ 4 * (M * T) + 3 * P := (abs_sub _ _).trans (by linarith)
    have k8 := fl_close 24 _ _ _ _ k6 k7
    refine k8.trans ?_
    rw [mul_assoc, mul_assoc]
    norm_num at *
    linarith
  exact ⟨key _ _ _ _ c1 b1 ho1 hxp1, key _ _ _ _ c2 b2 ho2 hxp2⟩

/-- C130 (in numbers). For patches of up to 112 arcseconds, pixels of at least 0.0275 arcseconds and detectors of up to
4096 pixels the positions are right to a hundredth of a pixel. -/
theorem C130_pixels (fma : Bool) (w : Affine) (z s x : ℝ × ℝ)
    (hz1 : |z.1| ≤ 360) (hz2 : |z.2| ≤ 360) (hs1 : |s.1| ≤ 1 / 64) (hs2 : |s.2| ≤ 1 / 64) (hx1 : |x.1| ≤ 1 / 64)
    (hx2 : |x.2| ≤ 1 / 64) (h11 : |w.v11| ≤ 131072) (h12 : |w.v12| ≤ 131072) (h21 : |w.v21| ≤ 131072)
    (h22 : |w.v22| ≤ 131072)
    (hp1 : |(w.pixel (ssky z.1 s.1, ssky z.2 s.2)).1| ≤ 4096) (hp2 : |(w.pixel (ssky z.1 s.1, ssky z.2 s.2)).2| ≤ 4096)
    (o xp : ℝ × ℝ) (ho1 : |o.1| ≤ 4096) (ho2 : |o.2| ≤ 4096) (hxp1 : |xp.1| ≤ 4096) (hxp2 : |xp.2| ≤ 4096) :
    |offset (center fma (pack w.wcs z s) x).1 o.1 xp.1 - (xp.1 - ((w.pixel (x.1 + z.1, x.2 + z.2)).1 + o.1))| ≤ 1 / 100 ∧
    |offset (center fma (pack w.wcs z s) x).2 o.2 xp.2 - (xp.2 - ((w.pixel (x.1 + z.1, x.2 + z.2)).2 + o.2))| ≤ 1 / 100 := by
  obtain ⟨h1, h2⟩ := C130_offset fma w z s x (1 / 64) 131072 4096 hz1 hz2 hs1 hs2 hx1 hx2 (by norm_num) h11 h12 h21 h22
    hp1 hp2 o xp ho1 ho2 hxp1 hxp2
  have e : (34 * 131072 * (1 / 64 + 1 / 2 ^ 44) + 12 * 4096) / 2 ^ 24 ≤ (1 : ℝ) / 100 := by norm_num
  exact ⟨h1.trans e, h2.trans e⟩

lemma fl_150 : fl 24 (150 + 1 / 2 ^ 17) = 150 := by
  have hlog : Int.log 2 |(150 + 1 / 2 ^ 17 : ℝ)| = 7 := by
    rw [abs_of_pos (by norm_num)]
    apply le_antisymm
    · have : (150 + 1 / 2 ^ 17 : ℝ) < ((2 : Nat) : ℝ) ^ (8 : ℤ) := by norm_num
      have := (Int.lt_zpow_iff_log_lt (b := 2) (by norm_num) (by norm_num)).mp this
      omega
    · exact (Int.zpow_le_iff_le_log (b := 2) (by norm_num) (by norm_num)).mp (by norm_num)
  have hulp : ulp 24 (150 + 1 / 2 ^ 17) = 1 / 2 ^ 16 := by
    rw [ulp, hlog]
    norm_num
  rw [fl, if_neg (by norm_num), hulp]
  have e : (150 + 1 / 2 ^ 17 : ℝ) / (1 / 2 ^ 16) = ((9830400 : ℤ) : ℝ) + 1 / 2 := by norm_num
  have hfl : ⌊((9830400 : ℤ) : ℝ) + 1 / 2⌋ = 9830400 := by
    rw [Int.floor_eq_iff]
    norm_num
  have hfr : Int.fract (((9830400 : ℤ) : ℝ) + 1 / 2) = 1 / 2 := by
    rw [Int.fract, hfl]
    ring
  rw [e, roundEven, hfr, hfl, if_neg (lt_irrefl _), if_neg (lt_irrefl _), if_pos (by decide)]
  norm_num

/-- C130 (without a reference). If the coordinates are not shifted a source 150 degrees from the origin can be moved by a
whole pixel without any effect: the kernel sees it where it was. -/
theorem C130_unzeroed_refuted : ∃ (w : Affine) (s x : ℝ × ℝ),
    |w.v11| ≤ 131072 ∧ |w.v12| ≤ 131072 ∧ |w.v21| ≤ 131072 ∧ |w.v22| ≤ 131072 ∧ w.pixel s = (1024, 1024) ∧
    (w.pixel x).1 = 1025 ∧ ∀ fma, (center fma (pack w.wcs (0, 0) s) x).1 = 1024 := by
  have rep : ∀ n : ℤ, |n| ≤ 2 ^ 24 → fl 24 (n : ℝ) = n := fun n hn =>
    fl_rep 24 (by norm_num) _ ⟨n, 0, hn, by simp⟩
  have rep' : ∀ n : ℤ, |n| ≤ 2 ^ 53 → fl 53 (n : ℝ) = n := fun n hn =>
    fl_rep 53 (by norm_num) _ ⟨n, 0, hn, by simp⟩
  have r0 : fl 24 0 = 0 := by simpa using rep 0 (by norm_num)
  have r150 : fl 24 150 = 150 := by simpa using rep 150 (by norm_num)
  have r1024 : fl 24 1024 = 1024 := by simpa using rep 1024 (by norm_num)
  have rM : fl 24 131072 = 131072 := by simpa using rep 131072 (by norm_num)
  have d150 : fl 53 150 = 150 := by simpa using rep' 150 (by norm_num)
  have d0 : fl 53 0 = 0 := by simpa using rep' 0 (by norm_num)
  refine ⟨⟨(1024 - 131072 * 150, 1024), 131072, 0, 0, 131072⟩, (150, 0), (150 + 1 / 2 ^ 17, 0), by norm_num, by norm_num,
    by norm_num, by norm_num, ?_, ?_, ?_⟩
  · simp [Affine.pixel]
  · simp only [Affine.pixel]
    norm_num
  · intro fma
    have hs : ssky 0 150 = 150 := by rw [ssky, add_zero, d150]
    have hs0 : ssky 0 0 = 0 := by rw [ssky, add_zero, d0]
    have hpix : (1024 - 131072 * 150 + 131072 * 150 : ℝ) = 1024 := by norm_num
    simp only [center, pack, Affine.wcs, Affine.pixel, hs, hs0, sub_zero, d150, r150, fl_150, sub_self, r0, d0, av, rM,
      mul_zero, add_zero, ite_self, zero_add, hpix, r1024]

/-- The hypotheses of `C130_pixels` can be met by a source that moves by a pixel. -/
theorem C130_witness : ∃ (w : Affine) (z s x : ℝ × ℝ), |z.1| ≤ 360 ∧ |z.2| ≤ 360 ∧ |s.1| ≤ 1 / 64 ∧ |s.2| ≤ 1 / 64 ∧
    |x.1| ≤ 1 / 64 ∧ |x.2| ≤ 1 / 64 ∧ |w.v11| ≤ 131072 ∧ |w.v12| ≤ 131072 ∧ |w.v21| ≤ 131072 ∧ |w.v22| ≤ 131072 ∧
    w.pixel (ssky z.1 s.1, ssky z.2 s.2) = (1024, 1024) ∧ (w.pixel (x.1 + z.1, x.2 + z.2)).1 = 1025 := by
  have d150 : fl 53 150 = 150 := by
    have := fl_rep 53 (by norm_num) 150 ⟨150, 0, by norm_num, by norm_num⟩
    exact this
  have d0 : fl 53 0 = 0 := by rw [fl, if_pos rfl]
  refine ⟨⟨(1024 - 131072 * 150, 1024), 131072, 0, 0, 131072⟩, (150, 0), (0, 0), (1 / 2 ^ 17, 0), by norm_num, by norm_num,
    by norm_num, by norm_num, by norm_num, by norm_num, by norm_num, by norm_num, by norm_num, by norm_num, ?_, ?_⟩
  · simp only [ssky, zero_add, add_zero, d150, d0, Affine.pixel]
    norm_num
  · simp only [Affine.pixel]
    norm_num

/-! ## Shifting back -/

/-- The difference of two numbers within a factor of two of each other has no more bits than they have. -/
lemma rep_sub (p : Nat) (a z : ℝ) (ha : Rep p a) (hz : Rep p z) (h1 : |a - z| ≤ |a|) (h2 : |a - z| ≤ |z|) :
    Rep p (a - z) := by
  obtain ⟨m, e, hm, rfl⟩ := ha
  obtain ⟨n, f, hn, rfl⟩ := hz
  have pe : ∀ k : ℤ, (0 : ℝ) < 2 ^ k := fun k => by positivity
  rcases le_total e f with h | h
  · obtain ⟨k, hk⟩ := Int.eq_ofNat_of_zero_le (sub_nonneg.mpr h)
    have ef : (2 : ℝ) ^ f = 2 ^ k * 2 ^ e := by
      rw [← zpow_natCast, ← zpow_add₀ (by norm_num)]
      congr 1
      omega
    have eq : (m : ℝ) * 2 ^ e - n * 2 ^ f = ((m - n * 2 ^ k : ℤ) : ℝ) * 2 ^ e := by
      rw [ef]
      push_cast
      ring
    refine ⟨m - n * 2 ^ k, e, ?_, eq⟩
    rw [eq, abs_mul, abs_mul, abs_of_pos (pe e)] at h1
    have h3 := le_of_mul_le_mul_right h1 (pe e)
    have h4 : |m - n * 2 ^ k| ≤ |m| := by exact_mod_cast h3
    exact h4.trans hm
  · obtain ⟨k, hk⟩ := Int.eq_ofNat_of_zero_le (sub_nonneg.mpr h)
    have ef : (2 : ℝ) ^ e = 2 ^ k * 2 ^ f := by
      rw [← zpow_natCast, ← zpow_add₀ (by norm_num)]
      congr 1
      omega
    have eq : (m : ℝ) * 2 ^ e - n * 2 ^ f = ((m * 2 ^ k - n : ℤ) : ℝ) * 2 ^ f := by
      rw [ef]
      push_cast
      ring
    refine ⟨m * 2 ^ k - n, f, ?_, eq⟩
    rw [eq, abs_mul, abs_mul, abs_of_pos (pe f)] at h2
    have h3 := le_of_mul_le_mul_right h2 (pe f)
    have h4 : |m * 2 ^ k - n| ≤ |n| := by exact_mod_cast h3
    exact h4.trans hn

/-- C130 (shifting back). A coordinate in double precision that is within a factor of two of the reference is shifted
without error and comes back exactly, and the patch is packed with exactly that position; any coordinate up to 360 degrees
comes back up to `2^-42` degrees. -/
theorem C130_roundtrip (z a : ℝ) (hz : Rep 53 z) (ha : Rep 53 a) :
    (0 < z → z / 2 ≤ a → a ≤ 2 * z → zeroed z a = a - z ∧ ssky z (zeroed z a) = a) ∧
    (|z| ≤ 360 → |a| ≤ 360 → |ssky z (zeroed z a) - a| ≤ 1 / 2 ^ 42) := by
  constructor
  · intro h0 h1 h2
    have hzd : zeroed z a = a - z := by
      rw [zeroed]
      apply fl_rep 53 (by norm_num)
      apply rep_sub 53 a z ha hz
      · rw [abs_le, abs_of_pos (by linarith : 0 < a)]
        constructor <;> linarith
      · rw [abs_le, abs_of_pos h0]
        constructor <;> linarith
    refine ⟨hzd, ?_⟩
    rw [ssky, hzd, sub_add_cancel]
    exact fl_rep 53 (by norm_num) a ha
  · intro h1 h2
    have k0 : |a - z| ≤ 720 := (abs_sub a z).trans (by linarith)
    have k1 := fl_close 53 (a - z) (a - z) 0 720 (by simp) k0
    have k2 : |zeroed z a + z - a| ≤ 0 + (720 + 0) / 2 ^ 53 := by
      have e : zeroed z a + z - a = fl 53 (a - z) - (a - z) := by rw [zeroed]; ring
      rw [e]
      exact k1
    have k3 := fl_close 53 _ _ _ _ k2 h2
    rw [ssky]
    refine k3.trans ?_
    norm_num

/-- C130 (not always exact). A declination close to the equator need not come back. -/
theorem C130_roundtrip_refuted : ∃ z a : ℝ, Rep 53 z ∧ Rep 53 a ∧ |z| ≤ 1 ∧ |a| ≤ 1 ∧ ssky z (zeroed z a) ≠ a := by
  refine ⟨1, 1 / 2 ^ 60, ⟨1, 0, by norm_num, by norm_num⟩, ⟨1, -60, by norm_num, by norm_num⟩, by norm_num, by norm_num, ?_⟩
  have hlog : Int.log 2 |(1 / 2 ^ 60 - 1 : ℝ)| = -1 := by
    rw [abs_of_neg (by norm_num)]
    apply le_antisymm
    · have : (-(1 / 2 ^ 60 - 1) : ℝ) < ((2 : Nat) : ℝ) ^ (0 : ℤ) := by norm_num
      have := (Int.lt_zpow_iff_log_lt (b := 2) (by norm_num) (by norm_num)).mp this
      omega
    · exact (Int.zpow_le_iff_le_log (b := 2) (by norm_num) (by norm_num)).mp (by norm_num)
  have hulp : ulp 53 (1 / 2 ^ 60 - 1) = 1 / 2 ^ 53 := by
    rw [ulp, hlog]
    norm_num
  have hz : zeroed 1 (1 / 2 ^ 60) = -1 := by
    rw [zeroed, fl, if_neg (by norm_num), hulp]
    have e : (1 / 2 ^ 60 - 1 : ℝ) / (1 / 2 ^ 53) = ((-2 ^ 53 : ℤ) : ℝ) + 1 / 2 ^ 7 := by norm_num
    have hfl : ⌊((-2 ^ 53 : ℤ) : ℝ) + 1 / 2 ^ 7⌋ = -2 ^ 53 := by
      rw [Int.floor_eq_iff]
      norm_num
    have hfr : Int.fract (((-2 ^ 53 : ℤ) : ℝ) + 1 / 2 ^ 7) = 1 / 2 ^ 7 := by
      rw [Int.fract, hfl]
      ring
    rw [e, roundEven, hfr, hfl, if_pos (by norm_num)]
    norm_num
  rw [hz, ssky, neg_add_cancel, fl, if_pos rfl]
  norm_num

end Forcepho.Float

import Verif.Patch.Meta
import Mathlib.Analysis.SpecialFunctions.Complex.Arg
import Mathlib.Analysis.SpecialFunctions.Trigonometric.Inverse
import Mathlib.Analysis.SpecialFunctions.Trigonometric.Bounds
import Mathlib.Analysis.Convex.SpecificFunctions.Deriv
import Mathlib.Analysis.Real.Pi.Bounds
import Mathlib.Tactic.LinearCombination
import Mathlib.Tactic.Positivity
import Mathlib.Tactic.FieldSimp
import Mathlib.Tactic.Linarith

/-!
# C109: scene coordinates

Model of `sky_to_scene`, `scene_frame` and `scene_coordinates` (forcepho/superscene.py:163-227).
`SkyCoord.transform_to(center.skyoffset_frame())` is the rotation of the sphere that brings the centre to
longitude and latitude zero, keeping north up; longitudes are between -180 and 180 degrees.  Angles are
real numbers.
-/

set_option autoImplicit false
set_option linter.unusedSectionVars false

namespace Forcepho.SuperScene

open Real

/-! ## Model -/

/-- Degrees to radians. -/
noncomputable def rad (x : ℝ) : ℝ := x * (π / 180)

/-- Radians to seconds of arc. -/
noncomputable def toArcsec (x : ℝ) : ℝ := x * (180 / π) * 3600

/-- A vector. -/
structure Vec where
  x : ℝ
  y : ℝ
  z : ℝ

/-- The direction with the given longitude and latitude (radians). -/
noncomputable def dir (lon lat : ℝ) : Vec := ⟨cos lat * cos lon, cos lat * sin lon, sin lat⟩

/-- The rotation to the frame centred on longitude `a` and latitude `d`: about the pole by `-a`, then about
the second axis by `d`. -/
noncomputable def toFrame (a d : ℝ) (v : Vec) : Vec :=
  let x := cos a * v.x + sin a * v.y
  let y := cos a * v.y - sin a * v.x
  ⟨cos d * x + sin d * v.z, y, cos d * v.z - sin d * x⟩

/-- Longitude and latitude of a direction (radians), longitude in (-pi, pi]. -/
noncomputable def angles (v : Vec) : ℝ × ℝ := (Complex.arg ⟨v.x, v.y⟩, arcsin v.z)

/-- Scene coordinates in radians of a position given in degrees, for a centre given in degrees. -/
noncomputable def offsets (center p : ℝ × ℝ) : ℝ × ℝ :=
  angles (toFrame (rad center.1) (rad center.2) (dir (rad p.1) (rad p.2)))

/-- `sky_to_scene` (superscene.py:163-185), for the given centre of the frame. -/
noncomputable def skyToScene (center p : ℝ × ℝ) : ℝ × ℝ :=
  (toArcsec (offsets center p).1, toArcsec (offsets center p).2)

/-- The centre of the scene frame (superscene.py:199-201). -/
noncomputable def sceneCenter (cat : List (ℝ × ℝ)) : ℝ × ℝ :=
  (Patch.median (cat.map Prod.fst), Patch.median (cat.map Prod.snd))

/-- The attributes in question: the positions in the catalog and the two cached values. -/
structure SkyState where
  cat : List (ℝ × ℝ)
  frame : Option (ℝ × ℝ)
  coords : Option (List (ℝ × ℝ))

/-- `scene_frame` (superscene.py:187-206): the centre of the frame, and the state with it cached. -/
noncomputable def sceneFrame (s : SkyState) : (ℝ × ℝ) × SkyState :=
  match s.frame with
  | some c => (c, s)
  | none => (sceneCenter s.cat, { s with frame := some (sceneCenter s.cat) })

/-- `scene_coordinates` (superscene.py:208-227). -/
noncomputable def sceneCoordinates (s : SkyState) : List (ℝ × ℝ) × SkyState :=
  match s.coords with
  | some c => (c, s)
  | none =>
    let f := sceneFrame s
    let c := s.cat.map (skyToScene f.1)
    (c, { f.2 with coords := some c })

/-- `ingest` as far as positions are concerned (superscene.py:115-121): the catalog is replaced and the
tree is built from `scene_coordinates`; the coordinates in the tree are returned. -/
noncomputable def ingestSky (s : SkyState) (cat : List (ℝ × ℝ)) : List (ℝ × ℝ) × SkyState :=
  sceneCoordinates { s with cat := cat }

/-- A check-in moves sources (superscene.py:311-313). -/
def moveSources (s : SkyState) (cat : List (ℝ × ℝ)) : SkyState := { s with cat := cat }

/-- `np.hypot` of the difference of two scene coordinates (superscene.py:404-405). -/
noncomputable def sceneDist (p q : ℝ × ℝ) : ℝ := √((p.1 - q.1) ^ 2 + (p.2 - q.2) ^ 2)

/-! ## Specification -/

/-- The square of the straight line between two directions given in degrees, on a sphere of radius one. -/
noncomputable def chord2 (p q : ℝ × ℝ) : ℝ :=
  (cos (rad p.2) * cos (rad p.1) - cos (rad q.2) * cos (rad q.1)) ^ 2 +
  (cos (rad p.2) * sin (rad p.1) - cos (rad q.2) * sin (rad q.1)) ^ 2 +
  (sin (rad p.2) - sin (rad q.2)) ^ 2

/-! ## Proofs -/

lemma dir_angles (v : Vec) (h : v.x ^ 2 + v.y ^ 2 + v.z ^ 2 = 1) : dir (angles v).1 (angles v).2 = v := by
  have hz1 : -1 ≤ v.z := by nlinarith [sq_nonneg v.x, sq_nonneg v.y]
  have hz2 : v.z ≤ 1 := by nlinarith [sq_nonneg v.x, sq_nonneg v.y]
  have hcos : cos (arcsin v.z) = √(v.x ^ 2 + v.y ^ 2) := by
    rw [cos_arcsin]; congr 1; linarith
  have hnorm : ‖(⟨v.x, v.y⟩ : ℂ)‖ = √(v.x ^ 2 + v.y ^ 2) := by
    rw [Complex.norm_def, Complex.normSq_apply]; congr 1; ring
  have e1 := Complex.norm_mul_cos_arg (⟨v.x, v.y⟩ : ℂ)
  have e2 := Complex.norm_mul_sin_arg (⟨v.x, v.y⟩ : ℂ)
  rw [hnorm] at e1 e2
  simp only [dir, angles, sin_arcsin hz1 hz2, hcos]
  cases v
  simp only at e1 e2 ⊢
  rw [e1, e2]

lemma toFrame_dot (a d : ℝ) (v w : Vec) :
    (toFrame a d v).x * (toFrame a d w).x + (toFrame a d v).y * (toFrame a d w).y +
      (toFrame a d v).z * (toFrame a d w).z = v.x * w.x + v.y * w.y + v.z * w.z := by
  have h1 := sin_sq_add_cos_sq a
  have h2 := sin_sq_add_cos_sq d
  simp only [toFrame]
  linear_combination ((cos a * v.x + sin a * v.y) * (cos a * w.x + sin a * w.y) + v.z * w.z) * h2 +
    (v.x * w.x + v.y * w.y) * h1

lemma dir_unit (lon lat : ℝ) : (dir lon lat).x ^ 2 + (dir lon lat).y ^ 2 + (dir lon lat).z ^ 2 = 1 := by
  have h1 := sin_sq_add_cos_sq lon
  have h2 := sin_sq_add_cos_sq lat
  simp only [dir]
  linear_combination (cos lat ^ 2) * h1 + h2

lemma toFrame_unit (a d lon lat : ℝ) : (toFrame a d (dir lon lat)).x ^ 2 + (toFrame a d (dir lon lat)).y ^ 2 +
    (toFrame a d (dir lon lat)).z ^ 2 = 1 := by
  have := toFrame_dot a d (dir lon lat) (dir lon lat)
  have h := dir_unit lon lat
  nlinarith

/-- The scene angles point in the rotated direction. -/
lemma dir_offsets (c p : ℝ × ℝ) : dir (offsets c p).1 (offsets c p).2 =
    toFrame (rad c.1) (rad c.2) (dir (rad p.1) (rad p.2)) :=
  dir_angles _ (toFrame_unit _ _ _ _)

/-- The chord in terms of differences of scene angles. -/
lemma chord2_offsets (c p q : ℝ × ℝ) : chord2 p q =
    4 * sin (((offsets c p).2 - (offsets c q).2) / 2) ^ 2 +
    4 * (cos (offsets c p).2 * cos (offsets c q).2) * sin (((offsets c p).1 - (offsets c q).1) / 2) ^ 2 := by
  have hp := dir_offsets c p
  have hq := dir_offsets c q
  have hdot := toFrame_dot (rad c.1) (rad c.2) (dir (rad p.1) (rad p.2)) (dir (rad q.1) (rad q.2))
  rw [← hp, ← hq] at hdot
  have h1 := dir_unit (rad p.1) (rad p.2)
  have h2 := dir_unit (rad q.1) (rad q.2)
  simp only [dir] at hdot h1 h2
  set a := (offsets c p).1
  set b := (offsets c p).2
  set a' := (offsets c q).1
  set b' := (offsets c q).2
  have s1 : 2 * sin ((b - b') / 2) ^ 2 = 1 - cos (b - b') := by
    have h := cos_two_mul ((b - b') / 2); have := sin_sq_add_cos_sq ((b - b') / 2)
    rw [mul_div_cancel₀ _ two_ne_zero] at h; linarith
  have s2 : 2 * sin ((a - a') / 2) ^ 2 = 1 - cos (a - a') := by
    have h := cos_two_mul ((a - a') / 2); have := sin_sq_add_cos_sq ((a - a') / 2)
    rw [mul_div_cancel₀ _ two_ne_zero] at h; linarith
  rw [cos_sub] at s1 s2
  unfold chord2
  linear_combination h1 + h2 - 2 * s1 - 2 * cos b * cos b' * s2 + 2 * hdot

lemma cos_lat_nonneg (c p : ℝ × ℝ) : 0 ≤ cos (offsets c p).2 := by
  simp only [offsets, angles]
  exact cos_arcsin_nonneg _

lemma sceneDist_arcsec (c p q : ℝ × ℝ) : sceneDist (skyToScene c p) (skyToScene c q) =
    toArcsec √(((offsets c p).1 - (offsets c q).1) ^ 2 + ((offsets c p).2 - (offsets c q).2) ^ 2) := by
  have hk : (0 : ℝ) ≤ 180 / π * 3600 := by positivity
  unfold sceneDist skyToScene toArcsec
  simp only
  have e : √(((offsets c p).1 - (offsets c q).1) ^ 2 + ((offsets c p).2 - (offsets c q).2) ^ 2) *
      (180 / π * 3600) = √((((offsets c p).1 - (offsets c q).1) ^ 2 +
        ((offsets c p).2 - (offsets c q).2) ^ 2) * (180 / π * 3600) ^ 2) := by
    rw [Real.sqrt_mul (by positivity), Real.sqrt_sq hk]
  rw [mul_assoc √_, e]
  congr 1; ring

lemma neg_le_sin_of (x : ℝ) (h : 0 ≤ x / 2) : -(x / 2) ≤ sin (x / 2) := by
  rcases le_total (x / 2) π with h1 | h1
  · have := sin_nonneg_of_nonneg_of_le_pi h h1; linarith
  · have := neg_one_le_sin (x / 2); have := two_le_pi; linarith

/-- C109. The centre of the frame has scene coordinates zero, and a scene distance is never shorter than the
straight line between the two directions. -/
theorem C109_never_short (c p q : ℝ × ℝ) :
    (|c.2| < 90 → skyToScene c c = (0, 0)) ∧
    toArcsec √(chord2 p q) ≤ sceneDist (skyToScene c p) (skyToScene c q) := by
  constructor
  · intro hc
    have hpos : 0 < cos (rad c.2) := by
      apply cos_pos_of_mem_Ioo
      rw [abs_lt] at hc
      have := pi_pos
      unfold rad
      constructor <;> nlinarith
    have e : toFrame (rad c.1) (rad c.2) (dir (rad c.1) (rad c.2)) = ⟨1, 0, 0⟩ := by
      have h1 := sin_sq_add_cos_sq (rad c.1)
      have h2 := sin_sq_add_cos_sq (rad c.2)
      simp only [toFrame, dir, Vec.mk.injEq]
      refine ⟨?_, ?_, ?_⟩
      · linear_combination (cos (rad c.2) ^ 2) * h1 + h2
      · ring
      · linear_combination (-sin (rad c.2) * cos (rad c.2)) * h1
    have e2 : Complex.arg ⟨1, 0⟩ = 0 := Complex.arg_one
    simp [skyToScene, offsets, angles, e, e2, toArcsec]
  · rw [sceneDist_arcsec, chord2_offsets c p q]
    unfold toArcsec
    have hk : (0 : ℝ) ≤ 180 / π * 3600 := by positivity
    rw [mul_assoc √_, mul_assoc √_]
    refine mul_le_mul_of_nonneg_right ?_ hk
    apply Real.sqrt_le_sqrt
    have hs : ∀ x : ℝ, 4 * sin (x / 2) ^ 2 ≤ x ^ 2 := by
      intro x
      have h : sin (x / 2) ^ 2 ≤ (x / 2) ^ 2 := by
        rw [sq_le_sq]
        rcases le_total 0 (x / 2) with h0 | h0
        · rw [abs_of_nonneg h0, abs_le]
          constructor
          · have := neg_le_sin_of x h0
            linarith
          · exact sin_le h0
        · rw [abs_of_nonpos h0, abs_le]
          constructor
          · have := sin_le (x := -(x / 2)) (by linarith)
            rw [sin_neg] at this; linarith
          · have := neg_le_sin_of (-x) (by linarith)
            rw [neg_div, sin_neg] at this; linarith
      nlinarith
    have h1 := hs ((offsets c p).2 - (offsets c q).2)
    have h2 := hs ((offsets c p).1 - (offsets c q).1)
    have h3 : cos (offsets c p).2 * cos (offsets c q).2 ≤ 1 := by
      nlinarith [cos_le_one (offsets c p).2, cos_le_one (offsets c q).2, cos_lat_nonneg c p, cos_lat_nonneg c q]
    nlinarith [sq_nonneg (sin (((offsets c p).1 - (offsets c q).1) / 2))]

/-- C109, the other direction (partial). If both latitudes are within `L` of the centre and the differences
of longitude and latitude are at most `M`, a scene distance is at most the straight line over
`cos L` times `sin (M/2) / (M/2)`.  Missing: a bound without the condition on the longitudes, refuted
below. -/
theorem C109_close_partial (c p q : ℝ × ℝ) (L M : ℝ) (hL : 0 ≤ L ∧ L < π / 2) (hM : 0 < M ∧ M ≤ π)
    (hp : |(offsets c p).2| ≤ L) (hq : |(offsets c q).2| ≤ L)
    (hlon : |(offsets c p).1 - (offsets c q).1| ≤ M) (hlat : |(offsets c p).2 - (offsets c q).2| ≤ M) :
    cos L * (sin (M / 2) / (M / 2)) * sceneDist (skyToScene c p) (skyToScene c q) ≤ toArcsec √(chord2 p q) := by
  have hsin : ∀ x : ℝ, |x| ≤ M → (sin (M / 2) / (M / 2)) ^ 2 * x ^ 2 ≤ 4 * sin (x / 2) ^ 2 := by
    intro x hx
    have key : ∀ y : ℝ, 0 ≤ y → y ≤ M / 2 → sin (M / 2) / (M / 2) * y ≤ sin y := by
      intro y h0 h1
      have hconc : ConcaveOn ℝ (Set.Icc 0 π) sin := strictConcaveOn_sin_Icc.concaveOn
      have m0 : (0 : ℝ) ∈ Set.Icc 0 π := ⟨le_refl _, pi_pos.le⟩
      have m1 : M / 2 ∈ Set.Icc 0 π := ⟨by linarith, by linarith⟩
      have w0 : 0 ≤ 1 - y / (M / 2) := by
        rw [sub_nonneg, div_le_one (by linarith)]; exact h1
      have w1 : 0 ≤ y / (M / 2) := div_nonneg h0 (by linarith)
      have := hconc.2 m0 m1 w0 w1 (by ring)
      simp only [smul_eq_mul, mul_zero, sin_zero, zero_add] at this
      have e : y / (M / 2) * (M / 2) = y := div_mul_cancel₀ _ (by linarith)
      rw [e] at this
      calc sin (M / 2) / (M / 2) * y = y / (M / 2) * sin (M / 2) := by ring
        _ ≤ sin y := this
    have h1 := key (|x| / 2) (by positivity) (by linarith)
    have h0 : 0 ≤ sin (M / 2) / (M / 2) * (|x| / 2) := by
      have : 0 ≤ sin (M / 2) := sin_nonneg_of_nonneg_of_le_pi (by linarith) (by linarith)
      exact mul_nonneg (div_nonneg this (by linarith)) (by positivity)
    have h2 := mul_self_le_mul_self h0 h1
    have e1 : sin (|x| / 2) * sin (|x| / 2) = sin (x / 2) ^ 2 := by
      rcases abs_choice x with h | h <;> rw [h]
      · ring
      · rw [neg_div, sin_neg]; ring
    rw [e1] at h2
    have e2 : sin (M / 2) / (M / 2) * (|x| / 2) * (sin (M / 2) / (M / 2) * (|x| / 2)) =
        (sin (M / 2) / (M / 2)) ^ 2 * x ^ 2 / 4 := by
      rw [← sq_abs x]; ring
    rw [e2] at h2
    linarith
  have hcosL : ∀ x : ℝ, |x| ≤ L → cos L ≤ cos x := by
    intro x hx
    rw [← cos_abs x]
    exact cos_le_cos_of_nonneg_of_le_pi (abs_nonneg x) (by linarith [hL.2, pi_pos]) hx
  have hc0 : 0 < cos L := cos_pos_of_mem_Ioo ⟨by linarith [pi_pos, hL.1], hL.2⟩
  have hk : (0 : ℝ) ≤ 180 / π * 3600 := by positivity
  rw [sceneDist_arcsec, chord2_offsets c p q]
  unfold toArcsec
  rw [mul_assoc √_, mul_assoc √_, ← mul_assoc _ √_]
  refine mul_le_mul_of_nonneg_right ?_ hk
  have hs0 : 0 ≤ sin (M / 2) / (M / 2) :=
    div_nonneg (sin_nonneg_of_nonneg_of_le_pi (by linarith) (by linarith)) (by linarith)
  rw [← Real.sqrt_sq (mul_nonneg hc0.le hs0), ← Real.sqrt_mul (sq_nonneg _)]
  apply Real.sqrt_le_sqrt
  have h1 := hsin _ hlat
  have h2 := hsin _ hlon
  have h3 : cos L ^ 2 ≤ cos (offsets c p).2 * cos (offsets c q).2 := by
    have := mul_le_mul (hcosL _ hp) (hcosL _ hq) hc0.le (cos_lat_nonneg c p)
    nlinarith
  have h4 : cos L ^ 2 ≤ 1 := by nlinarith [cos_le_one L]
  have hA := sq_nonneg (sin (((offsets c p).1 - (offsets c q).1) / 2))
  have hB := sq_nonneg (sin (((offsets c p).2 - (offsets c q).2) / 2))
  set S := sin (M / 2) / (M / 2)
  set A := sin (((offsets c p).1 - (offsets c q).1) / 2) ^ 2
  set B := sin (((offsets c p).2 - (offsets c q).2) / 2) ^ 2
  set X := (offsets c p).1 - (offsets c q).1
  set Y := (offsets c p).2 - (offsets c q).2
  have t1 : cos L ^ 2 * (S ^ 2 * X ^ 2) ≤ cos (offsets c p).2 * cos (offsets c q).2 * (4 * A) :=
    (mul_le_mul_of_nonneg_left h2 (sq_nonneg _)).trans (mul_le_mul_of_nonneg_right h3 (by linarith))
  have t2 : cos L ^ 2 * (S ^ 2 * Y ^ 2) ≤ 1 * (4 * B) :=
    (mul_le_mul_of_nonneg_left h1 (sq_nonneg _)).trans (mul_le_mul_of_nonneg_right h4 (by linarith))
  nlinarith

/-- C109. The directions of the scene coordinates are as far apart as the directions on the sky, the scene
coordinates are at most a half turn and a quarter turn, a source due north of the centre has scene
longitude zero and latitude the difference of declination, and a source up to a half turn to the east has
positive scene longitude. -/
theorem C109_axes (c p q : ℝ × ℝ) :
    chord2 ((skyToScene c p).1 / 3600, (skyToScene c p).2 / 3600)
        ((skyToScene c q).1 / 3600, (skyToScene c q).2 / 3600) = chord2 p q ∧
    (|(skyToScene c p).1| ≤ 180 * 3600 ∧ |(skyToScene c p).2| ≤ 90 * 3600) ∧
    (p.1 = c.1 → |p.2 - c.2| < 90 → skyToScene c p = (0, (p.2 - c.2) * 3600)) ∧
    (|p.2| < 90 → 0 < p.1 - c.1 → p.1 - c.1 < 180 → 0 < (skyToScene c p).1) := by
  have hpi := pi_pos
  have hrad : ∀ x : ℝ, rad (toArcsec x / 3600) = x := by
    intro x; unfold rad toArcsec; field_simp
  refine ⟨?_, ?_, ?_, ?_⟩
  · have hp := dir_offsets c p
    have hq := dir_offsets c q
    have hpq := toFrame_dot (rad c.1) (rad c.2) (dir (rad p.1) (rad p.2)) (dir (rad q.1) (rad q.2))
    rw [← hp, ← hq] at hpq
    have u1 := dir_unit (rad p.1) (rad p.2)
    have u2 := dir_unit (rad q.1) (rad q.2)
    have u3 := dir_unit (offsets c p).1 (offsets c p).2
    have u4 := dir_unit (offsets c q).1 (offsets c q).2
    simp only [dir] at hpq u1 u2 u3 u4
    simp only [chord2, skyToScene, hrad]
    linear_combination u3 + u4 - u1 - u2 - 2 * hpq
  · have b1 : |(offsets c p).1| ≤ π := Complex.abs_arg_le_pi _
    have b2 : |(offsets c p).2| ≤ π / 2 := by
      rw [abs_le]
      exact ⟨neg_pi_div_two_le_arcsin _, arcsin_le_pi_div_two _⟩
    have hk : (0 : ℝ) < 180 / π * 3600 := by positivity
    constructor
    · simp only [skyToScene, toArcsec]
      rw [mul_assoc, abs_mul, abs_of_pos hk]
      calc _ ≤ π * (180 / π * 3600) := mul_le_mul_of_nonneg_right b1 hk.le
        _ = 180 * 3600 := by field_simp
    · simp only [skyToScene, toArcsec]
      rw [mul_assoc, abs_mul, abs_of_pos hk]
      calc _ ≤ π / 2 * (180 / π * 3600) := mul_le_mul_of_nonneg_right b2 hk.le
        _ = 90 * 3600 := by field_simp; norm_num
  · intro h1 h2
    have e : toFrame (rad c.1) (rad c.2) (dir (rad p.1) (rad p.2)) =
        ⟨cos (rad p.2 - rad c.2), 0, sin (rad p.2 - rad c.2)⟩ := by
      have h := sin_sq_add_cos_sq (rad c.1)
      rw [h1, cos_sub, sin_sub]
      simp only [toFrame, dir, Vec.mk.injEq]
      refine ⟨?_, ?_, ?_⟩
      · linear_combination (cos (rad c.2) * cos (rad p.2)) * h
      · ring
      · linear_combination (-sin (rad c.2) * cos (rad p.2)) * h
    have hr : rad p.2 - rad c.2 = rad (p.2 - c.2) := by unfold rad; ring
    rw [abs_lt] at h2
    have l1 : -(π / 2) < rad (p.2 - c.2) := by unfold rad; nlinarith
    have l2 : rad (p.2 - c.2) < π / 2 := by unfold rad; nlinarith
    have hcos : 0 < cos (rad (p.2 - c.2)) := cos_pos_of_mem_Ioo ⟨l1, l2⟩
    have ha : Complex.arg ⟨cos (rad (p.2 - c.2)), 0⟩ = 0 := Complex.arg_ofReal_of_nonneg hcos.le
    simp only [skyToScene, offsets, angles, e, hr, ha, arcsin_sin l1.le l2.le]
    unfold toArcsec rad
    congr 1
    · ring
    · field_simp
  · intro h1 h2 h3
    have hy : (toFrame (rad c.1) (rad c.2) (dir (rad p.1) (rad p.2))).y =
        cos (rad p.2) * sin (rad (p.1 - c.1)) := by
      have hr : rad (p.1 - c.1) = rad p.1 - rad c.1 := by unfold rad; ring
      rw [hr, sin_sub]; simp only [toFrame, dir]; ring
    rw [abs_lt] at h1
    have hc : 0 < cos (rad p.2) := by
      apply cos_pos_of_mem_Ioo
      unfold rad
      constructor <;> nlinarith
    have hs : 0 < sin (rad (p.1 - c.1)) := by
      apply sin_pos_of_pos_of_lt_pi
      · unfold rad; positivity
      · unfold rad; nlinarith
    have hpos := mul_pos hc hs
    rw [← hy] at hpos
    have ha : 0 < (offsets c p).1 := by
      simp only [offsets, angles]
      rcases lt_or_eq_of_le (Complex.arg_nonneg_iff (z := ⟨_, _⟩).mpr hpos.le) with h | h
      · exact h
      · rw [eq_comm, Complex.arg_eq_zero_iff] at h
        exact absurd h.2 hpos.ne'
    simp only [skyToScene, toArcsec]
    positivity

/-- Two sources a degree north and a degree south of the centre meet the hypotheses of
`C109_close_partial` with `L = M = 1`. -/
example : cos 1 * (sin (1 / 2) / (1 / 2)) * sceneDist (skyToScene (10, 20) (10, 21)) (skyToScene (10, 20) (10, 19)) ≤
    toArcsec √(chord2 (10, 21) (10, 19)) := by
  have hpi := pi_pos
  have hp2 := two_le_pi
  have hp4 := pi_le_four
  have hoff : ∀ c p : ℝ × ℝ, offsets c p =
      (rad ((skyToScene c p).1 / 3600), rad ((skyToScene c p).2 / 3600)) := by
    intro c p
    unfold skyToScene rad toArcsec
    ext <;> field_simp
  have h1 := (C109_axes (10, 20) (10, 21) (10, 21)).2.2.1 rfl (by norm_num [abs_lt])
  have h2 := (C109_axes (10, 20) (10, 19) (10, 19)).2.2.1 rfl (by norm_num [abs_lt])
  have o1 : offsets (10, 20) (10, 21) = (0, π / 180) := by
    rw [hoff, h1]; norm_num [rad]
  have o2 : offsets (10, 20) (10, 19) = (0, -(π / 180)) := by
    rw [hoff, h2]; norm_num [rad]
  refine C109_close_partial (10, 20) (10, 21) (10, 19) 1 1 ⟨by norm_num, ?_⟩ ⟨by norm_num, by linarith⟩ ?_ ?_ ?_ ?_
  · have := pi_gt_three; linarith
  all_goals simp only [o1, o2, abs_le]
  all_goals constructor <;> linarith

/-- The coordinates of a catalog, row for row, about the medians of its positions. -/
def CoordsOf (cat coords : List (ℝ × ℝ)) : Prop :=
  coords.length = cat.length ∧ ∀ (i : Nat) (p : ℝ × ℝ), cat[i]? = some p →
    coords[i]? = some (skyToScene (Patch.median (cat.map Prod.fst), Patch.median (cat.map Prod.snd)) p)

/-- C109. The coordinates in the tree are those of the catalog that was ingested first, and however the
sources move afterwards `scene_coordinates` stays equal to what is in the tree. -/
theorem C109_cached (cat : List (ℝ × ℝ)) (moves : List (List (ℝ × ℝ))) :
    CoordsOf cat (ingestSky ⟨[], none, none⟩ cat).1 ∧
    (sceneCoordinates (moves.foldl moveSources (ingestSky ⟨[], none, none⟩ cat).2)).1 =
      (ingestSky ⟨[], none, none⟩ cat).1 ∧
    (sceneFrame (moves.foldl moveSources (ingestSky ⟨[], none, none⟩ cat).2)).1 =
      (Patch.median (cat.map Prod.fst), Patch.median (cat.map Prod.snd)) := by
  have hfold : ∀ (ms : List (List (ℝ × ℝ))) (s : SkyState),
      (ms.foldl moveSources s).coords = s.coords ∧ (ms.foldl moveSources s).frame = s.frame := by
    intro ms
    induction ms with
    | nil => intro s; exact ⟨rfl, rfl⟩
    | cons m ms ih => intro s; exact ih (moveSources s m)
  obtain ⟨f1, f2⟩ := hfold moves (ingestSky ⟨[], none, none⟩ cat).2
  refine ⟨⟨?_, ?_⟩, ?_, ?_⟩
  · simp [ingestSky, sceneCoordinates, sceneFrame]
  · intro i p h
    simp [ingestSky, sceneCoordinates, sceneFrame, h, sceneCenter]
  · have e : (ingestSky ⟨[], none, none⟩ cat).2.coords = some (ingestSky ⟨[], none, none⟩ cat).1 := rfl
    rw [e] at f1
    rw [sceneCoordinates, f1]
  · have e : (ingestSky ⟨[], none, none⟩ cat).2.frame =
      some (Patch.median (cat.map Prod.fst), Patch.median (cat.map Prod.snd)) := rfl
    rw [e] at f2
    rw [sceneFrame, f2]

/-- C109 fails for a second catalog: a second `ingest` builds the tree from the coordinates of the first,
which are not those of the second catalog whenever the numbers of sources differ. -/
theorem C109_reingest_refuted (cat cat' : List (ℝ × ℝ)) (h : cat.length ≠ cat'.length) :
    (ingestSky (ingestSky ⟨[], none, none⟩ cat).2 cat').1 = (ingestSky ⟨[], none, none⟩ cat).1 ∧
    ¬ CoordsOf cat' (ingestSky (ingestSky ⟨[], none, none⟩ cat).2 cat').1 := by
  have e : (ingestSky (ingestSky ⟨[], none, none⟩ cat).2 cat').1 = (ingestSky ⟨[], none, none⟩ cat).1 := rfl
  refine ⟨e, ?_⟩
  rw [e]
  rintro ⟨hl, _⟩
  have := (C109_cached cat []).1.1
  omega

lemma median_pair (a b : ℝ) : Patch.median [a, b] = (a + b) / 2 := by
  by_cases h : a ≤ b
  · simp [Patch.median, List.mergeSort, List.MergeSort.Internal.splitInTwo, h]
  · simp [Patch.median, List.mergeSort, List.MergeSort.Internal.splitInTwo, h, add_comm]

/-- The scene longitude on the equator. -/
lemma equator (a x : ℝ) (h : |x - a| < 180) : skyToScene (a, 0) (x, 0) = ((x - a) * 3600, 0) := by
  have hpi := pi_pos
  have e : toFrame (rad a) (rad 0) (dir (rad x) (rad 0)) = ⟨cos (rad (x - a)), sin (rad (x - a)), 0⟩ := by
    have hr : rad (x - a) = rad x - rad a := by unfold rad; ring
    have h0 : rad 0 = 0 := by simp [rad]
    rw [hr, cos_sub, sin_sub, h0]
    simp only [toFrame, dir, cos_zero, sin_zero, Vec.mk.injEq]
    refine ⟨?_, ?_, ?_⟩ <;> ring
  rw [abs_lt] at h
  have harg : Complex.arg ⟨cos (rad (x - a)), sin (rad (x - a))⟩ = rad (x - a) := by
    have := Complex.arg_cos_add_sin_mul_I (θ := rad (x - a))
      ⟨by unfold rad; nlinarith, by unfold rad; nlinarith⟩
    have e2 : (⟨cos (rad (x - a)), sin (rad (x - a))⟩ : ℂ) =
        Complex.cos (rad (x - a) : ℝ) + Complex.sin (rad (x - a) : ℝ) * Complex.I := by
      apply Complex.ext <;> simp [← Complex.ofReal_cos, ← Complex.ofReal_sin]
    rw [e2, this]
  simp only [skyToScene, offsets, angles, e, harg, arcsin_zero]
  unfold toArcsec rad
  congr 1
  · field_simp
  · ring

/-- C109 fails across right ascension zero: of two sources on the equator, `e` degrees on either side of right
ascension zero, the medians put the centre of the frame on the opposite side of the sky; the scene distance is
`360 - 2e` degrees and the sources are `2e` degrees apart. -/
theorem C109_wrap_refuted (e : ℝ) (h0 : 0 < e) (h1 : e < 90) :
    (ingestSky ⟨[], none, none⟩ [(360 - e, 0), (e, 0)]).1 =
      [((180 - e) * 3600, 0), (-((180 - e) * 3600), 0)] ∧
    sceneDist ((180 - e) * 3600, 0) (-((180 - e) * 3600), 0) = (360 - 2 * e) * 3600 ∧
    √(chord2 (360 - e, 0) (e, 0)) = 2 * sin (rad e) := by
  have hpi := pi_pos
  refine ⟨?_, ?_, ?_⟩
  · have hc : sceneCenter [(360 - e, 0), (e, 0)] = (180, 0) := by
      simp only [sceneCenter, List.map_cons, List.map_nil, median_pair]
      congr 1 <;> ring
    have e1 := equator 180 (360 - e) (by rw [abs_lt]; constructor <;> linarith)
    have e2 := equator 180 e (by rw [abs_lt]; constructor <;> linarith)
    simp only [ingestSky, sceneCoordinates, sceneFrame, hc, List.map_cons, List.map_nil, e1, e2]
    congr 2
    · congr 1; ring
    · congr 2; ring
  · simp only [sceneDist]
    have : ((180 - e) * 3600 - -((180 - e) * 3600)) ^ 2 + ((0 : ℝ) - 0) ^ 2 = ((360 - 2 * e) * 3600) ^ 2 := by ring
    rw [this, Real.sqrt_sq (by nlinarith)]
  · have hr : rad (360 - e) = 2 * π - rad e := by unfold rad; ring
    have hs : 0 ≤ sin (rad e) := by
      apply sin_nonneg_of_nonneg_of_le_pi
      · unfold rad; positivity
      · unfold rad; nlinarith
    have : chord2 (360 - e, 0) (e, 0) = (2 * sin (rad e)) ^ 2 := by
      have h0 : rad 0 = 0 := by simp [rad]
      simp only [chord2, hr, h0, cos_zero, sin_zero, cos_two_pi_sub, sin_two_pi_sub]
      ring
    rw [this, Real.sqrt_sq (by linarith)]

end Forcepho.SuperScene

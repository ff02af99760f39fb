import Verif.Region.Search

/-! # C55 for images, C76 for rectangular regions -/

set_option autoImplicit false
set_option linter.unusedSectionVars false

namespace Forcepho.Region

/-- Specification: `x` lies between two of the values. -/
def Between (l : List ℝ) (x : ℝ) : Prop := (∃ a ∈ l, a ≤ x) ∧ ∃ b ∈ l, x ≤ b

/-- C55 (images). A rectangular region of positive extent is said to overlap an image exactly if it has a point
whose coordinates both lie between those of the corners of the image on the sky. -/
theorem C55_image (a1 a2 c1 c2 : ℝ) (ha : a1 < a2) (hc : c1 < c2) (toSky : ℝ × ℝ → ℝ × ℝ) (nx ny : ℝ) :
    overlaps (rectangle a1 a2 c1 c2).box toSky nx ny = some true ↔
      ∃ p : ℝ × ℝ, a1 ≤ p.1 ∧ p.1 ≤ a2 ∧ c1 ≤ p.2 ∧ p.2 ≤ c2 ∧
        Between [(toSky (0, 0)).1, (toSky (nx, 0)).1, (toSky (nx, ny)).1, (toSky (0, ny)).1] p.1 ∧
        Between [(toSky (0, 0)).2, (toSky (nx, 0)).2, (toSky (nx, ny)).2, (toSky (0, ny)).2] p.2 := by
  set R := [(toSky (0, 0)).1, (toSky (nx, 0)).1, (toSky (nx, ny)).1, (toSky (0, ny)).1] with hR
  set D := [(toSky (0, 0)).2, (toSky (nx, 0)).2, (toSky (nx, ny)).2, (toSky (0, ny)).2] with hD
  have hdef : overlaps (rectangle a1 a2 c1 c2).box toSky nx ny =
      polygonsOverlap (rectBox a1 a2 c1 c2) (rectBox (lo R) (hi R) (lo D) (hi D)) := rfl
  have hRn : R ≠ [] := by simp [hR]
  have hDn : D ≠ [] := by simp [hD]
  have hRle : lo R ≤ hi R := le_hi (lo_mem hRn)
  have hDle : lo D ≤ hi D := le_hi (lo_mem hDn)
  have hbt : ∀ (l : List ℝ) (_ : l ≠ []) (x : ℝ), Between l x ↔ lo l ≤ x ∧ x ≤ hi l := by
    intro l hl x
    constructor
    · rintro ⟨⟨a, h1, h2⟩, b, h3, h4⟩
      exact ⟨(lo_le h1).trans h2, h4.trans (le_hi h3)⟩
    · rintro ⟨h1, h2⟩
      exact ⟨⟨_, lo_mem hl, h1⟩, _, hi_mem hl, h2⟩
  rw [hdef, C55_rectangles a1 a2 c1 c2 _ _ _ _ ha.le hc.le hRle hDle (Or.inl ha) (Or.inl hc)]
  constructor
  · rintro ⟨p, ⟨⟨h1, h2⟩, h3, h4⟩, ⟨h5, h6⟩, h7, h8⟩
    exact ⟨p, h1, h2, h3, h4, (hbt R hRn _).mpr ⟨h5, h6⟩, (hbt D hDn _).mpr ⟨h7, h8⟩⟩
  · rintro ⟨p, h1, h2, h3, h4, h5, h6⟩
    exact ⟨p, ⟨⟨h1, h2⟩, h3, h4⟩, (hbt R hRn _).mp h5, (hbt D hDn _).mp h6⟩

/-- A number that is affine in two coordinates lies between its values at the corners of a rectangle. -/
lemma between_corners (u v w nx ny x y : ℝ) (hx0 : 0 ≤ x) (hx : x ≤ nx) (hy0 : 0 ≤ y) (hy : y ≤ ny) :
    Between [u * 0 + v * 0 + w, u * nx + v * 0 + w, u * nx + v * ny + w, u * 0 + v * ny + w] (u * x + v * y + w) := by
  constructor
  · rcases le_total 0 u with hu | hu <;> rcases le_total 0 v with hv | hv
    · exact ⟨u * 0 + v * 0 + w, by simp, by nlinarith [mul_nonneg hu hx0, mul_nonneg hv hy0]⟩
    · exact ⟨u * 0 + v * ny + w, by simp, by nlinarith [mul_nonneg hu hx0, mul_le_mul_of_nonpos_left hy hv]⟩
    · exact ⟨u * nx + v * 0 + w, by simp, by nlinarith [mul_le_mul_of_nonpos_left hx hu, mul_nonneg hv hy0]⟩
    · exact ⟨u * nx + v * ny + w, by simp,
        by nlinarith [mul_le_mul_of_nonpos_left hx hu, mul_le_mul_of_nonpos_left hy hv]⟩
  · rcases le_total 0 u with hu | hu <;> rcases le_total 0 v with hv | hv
    · exact ⟨u * nx + v * ny + w, by simp,
        by nlinarith [mul_le_mul_of_nonneg_left hx hu, mul_le_mul_of_nonneg_left hy hv]⟩
    · exact ⟨u * nx + v * 0 + w, by simp,
        by nlinarith [mul_le_mul_of_nonneg_left hx hu, mul_nonpos_of_nonpos_of_nonneg hv hy0]⟩
    · exact ⟨u * 0 + v * ny + w, by simp, by nlinarith [mul_nonpos_of_nonpos_of_nonneg hu hx0, mul_le_mul_of_nonneg_left hy hv]⟩
    · exact ⟨u * 0 + v * 0 + w, by simp,
        by nlinarith [mul_nonpos_of_nonpos_of_nonneg hu hx0, mul_nonpos_of_nonpos_of_nonneg hv hy0]⟩

/-- C55 (no image is missed). If the astrometry is affine and some point of the image, edges included, lies in a
rectangular region, the region is said to overlap the image. -/
theorem C55_no_miss (a1 a2 c1 c2 : ℝ) (ha : a1 < a2) (hc : c1 < c2) (A : Affine) (nx ny x y : ℝ)
    (hx0 : 0 ≤ x) (hx : x ≤ nx) (hy0 : 0 ≤ y) (hy : y ≤ ny)
    (hin : a1 ≤ (A.app (x, y)).1 ∧ (A.app (x, y)).1 ≤ a2 ∧ c1 ≤ (A.app (x, y)).2 ∧ (A.app (x, y)).2 ≤ c2) :
    overlaps (rectangle a1 a2 c1 c2).box A.app nx ny = some true := by
  rw [C55_image a1 a2 c1 c2 ha hc]
  obtain ⟨h1, h2, h3, h4⟩ := hin
  exact ⟨A.app (x, y), h1, h2, h3, h4, between_corners A.m11 A.m12 A.o1 nx ny x y hx0 hx hy0 hy,
    between_corners A.m21 A.m22 A.o2 nx ny x y hx0 hx hy0 hy⟩

/-- A region of one degree on an image of two by three pixels, rotated by 45 degrees. -/
example : overlaps (rectangle 0 1 2 3).box (fun p : ℝ × ℝ => (p.1 - p.2, p.1 + p.2)) 2 3 = some true := by
  have := C55_no_miss 0 1 2 3 (by norm_num) (by norm_num) ⟨1, -1, 1, 1, 0, 0, by norm_num⟩ 2 3 (3 / 2) 1
    (by norm_num) (by norm_num) (by norm_num) (by norm_num) (by norm_num [Affine.app])
  have he : (⟨1, -1, 1, 1, 0, 0, by norm_num⟩ : Affine).app = fun p : ℝ × ℝ => (p.1 - p.2, p.1 + p.2) := by
    funext p
    simp only [Affine.app, Prod.mk.injEq]
    constructor <;> ring
  rwa [he] at this

/-- C76 (rectangles). A patch of a rectangular region holds exactly the pixels of those super-pixels of which one
of the four corner pixels lies strictly inside the region on the sky. -/
theorem C76_rectangle (a1 a2 c1 c2 : ℝ) (w : Wcs ℝ) (s n x y : Nat) :
    (x, y) ∈ findPixels (rectangle a1 a2 c1 c2) w s n ↔ 0 < s ∧ x < n * s ∧ y < n * s ∧
      ∃ X Y : Nat, (X = x - x % s ∨ X = x - x % s + (s - 1)) ∧ (Y = y - y % s ∨ Y = y - y % s + (s - 1)) ∧
        a1 < (w.toSky (X, Y)).1 ∧ (w.toSky (X, Y)).1 < a2 ∧ c1 < (w.toSky (X, Y)).2 ∧ (w.toSky (X, Y)).2 < c2 := by
  rw [mem_findPixels]
  have hdm : ∀ z : Nat, z / s * s = z - z % s := by
    intro z
    have := Nat.div_add_mod z s
    rw [Nat.mul_comm] at this
    omega
  refine and_congr_right fun _ => and_congr_right fun _ => and_congr_right fun _ => ?_
  constructor
  · rintro ⟨p, hp, hc⟩
    obtain ⟨a, b, h1, h2, rfl⟩ := (mem_corners _ _ _ _).mp hp
    refine ⟨x / s * s + a, y / s * s + b, ?_, ?_, ?_⟩
    · rw [hdm]; rcases h1 with rfl | rfl <;> simp
    · rw [hdm]; rcases h2 with rfl | rfl <;> simp
    · simpa [rectangle, and_assoc] using hc
  · rintro ⟨X, Y, h1, h2, h⟩
    refine ⟨((X : ℝ), (Y : ℝ)), ?_, ?_⟩
    · rw [mem_corners]
      rcases h1 with rfl | rfl <;> rcases h2 with rfl | rfl
      · exact ⟨0, 0, by simp, by simp, by rw [hdm, hdm]; rfl⟩
      · exact ⟨0, s - 1, by simp, by simp, by rw [hdm, hdm]; rfl⟩
      · exact ⟨s - 1, 0, by simp, by simp, by rw [hdm, hdm]; rfl⟩
      · exact ⟨s - 1, s - 1, by simp, by simp, by rw [hdm, hdm]⟩
    · simpa [rectangle, and_assoc] using h

end Forcepho.Region

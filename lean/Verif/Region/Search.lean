import Verif.Region.Separate
import Verif.Storage.Props
import Mathlib.Analysis.Convex.SpecificFunctions.Deriv
import Mathlib.Analysis.SpecialFunctions.Trigonometric.Inverse
import Mathlib.Analysis.SpecialFunctions.Trigonometric.Bounds
import Mathlib.Analysis.Complex.Norm

/-! # C73–C76: finding exposures and pixels -/

set_option autoImplicit false
set_option linter.unusedSectionVars false

namespace Forcepho.Region

/-! ## C73: exposures covering a position -/

/-- An affine map of the plane. -/
structure Affine where
  m11 : ℝ
  m12 : ℝ
  m21 : ℝ
  m22 : ℝ
  o1 : ℝ
  o2 : ℝ
  det : m11 * m22 - m12 * m21 ≠ 0

/-- Apply it. -/
def Affine.app (A : Affine) (p : ℝ × ℝ) : ℝ × ℝ :=
  (A.m11 * p.1 + A.m12 * p.2 + A.o1, A.m21 * p.1 + A.m22 * p.2 + A.o2)

lemma side_affine_map (A : Affine) (p : ℝ × ℝ) (e : (ℝ × ℝ) × (ℝ × ℝ)) :
    side (A.app p) (A.app e.1, A.app e.2) = (A.m11 * A.m22 - A.m12 * A.m21) * side p e := by
  simp only [side, Affine.app]; ring

lemma edges_map (f : ℝ × ℝ → ℝ × ℝ) (poly : List (ℝ × ℝ)) :
    edges (poly.map f) = (edges poly).map fun e => (f e.1, f e.2) := by
  unfold edges
  rw [← List.map_drop, ← List.map_take, ← List.map_append, List.zip_map]
  rfl

/-- The containment test is the same on both sides of an affine map. -/
lemma contains_affine (A : Affine) (poly : List (ℝ × ℝ)) (hne : poly ≠ []) (p : ℝ × ℝ) :
    polygonContains (poly.map A.app) (A.app p) = some true ↔ polygonContains poly p = some true := by
  rw [contains_iff (by simpa using hne), contains_iff hne, edges_map]
  simp only [List.forall_mem_map, side_affine_map]
  rcases lt_or_gt_of_ne A.det with hd | hd
  · simp only [mul_neg_iff, mul_eq_zero, hd.ne, not_lt.mpr hd.le, hd, false_or,
      false_and, true_and, mul_pos_iff, and_false, or_false]
    tauto
  · simp only [mul_neg_iff, mul_eq_zero, hd.ne', not_lt.mpr hd.le, hd, false_or,
      false_and, true_and, mul_pos_iff, and_false, or_false]

/-- The quadrilateral that is actually tested, in pixels. -/
lemma frame_iff (w h : ℝ) (hw : 0 < w) (hh : 0 < h) (p : ℝ × ℝ) :
    polygonContains [(0, 0), (0, h), (w, w), (w, 0)] p = some true ↔
      0 < p.1 ∧ p.1 < w ∧ 0 < p.2 ∧ w * (p.2 - h) < (w - h) * p.1 := by
  rw [contains_iff (by simp)]
  have he : edges [((0 : ℝ), (0 : ℝ)), (0, h), (w, w), (w, 0)] =
      [((0, 0), (0, h)), ((0, h), (w, w)), ((w, w), (w, 0)), ((w, 0), (0, 0))] := rfl
  rw [he]
  simp only [List.forall_mem_cons, List.not_mem_nil, false_implies, implies_true, and_true, side]
  constructor
  · rintro (⟨h1, h2, h3, h4⟩ | ⟨h1, h2, h3, h4⟩ | ⟨h1, h2, h3, h4⟩)
    · exfalso
      have a1 : p.1 < 0 := by nlinarith
      have a2 : w < p.1 := by nlinarith
      linarith
    · refine ⟨by nlinarith, by nlinarith, by nlinarith, by linarith⟩
    · exfalso
      have a1 : h * p.1 = 0 := by linarith
      have a2 : w * (p.1 - w) = 0 := by linarith
      have b1 : p.1 = 0 := (mul_eq_zero.mp a1).resolve_left hh.ne'
      have b2 : p.1 - w = 0 := (mul_eq_zero.mp a2).resolve_left hw.ne'
      linarith
  · rintro ⟨h1, h2, h3, h4⟩
    right; left
    refine ⟨by nlinarith, by linarith, by nlinarith, by nlinarith⟩

/-- C73 (what is tested). With an affine solution, an exposure is listed exactly when the position
passes the rough check and lies in a quadrilateral that is the image only if it is square. -/
theorem C73_frame (hd : Header ℝ) (A : Affine) (hA : hd.toSky = A.app) (hw : 0 < hd.naxis1)
    (hh : 0 < hd.naxis2) (p : ℝ × ℝ) :
    covers hd (hd.toSky p) = true ↔ rough hd (hd.toSky p) = some true ∧
      0 < p.1 ∧ p.1 < hd.naxis1 ∧ 0 < p.2 ∧
      hd.naxis1 * (p.2 - hd.naxis2) < (hd.naxis1 - hd.naxis2) * p.1 := by
  unfold covers frame
  rw [Bool.and_eq_true, beq_iff_eq, beq_iff_eq, hA, contains_affine A _ (by simp), frame_iff _ _ hw hh]

/-- C73 (square images). For square images with affine solutions whose rough outline, if any, does not
reject positions inside the image, the search lists exactly the exposures of the requested bands in
whose pixel frame the position lies strictly inside, each with its band. -/
theorem C73_square_partial (headers : List (String × List (String × Header ℝ))) (bandlist : List String)
    (sky : ℝ × ℝ)
    (H : ∀ band exps, headers.lookup band = some exps → ∀ e ∈ exps,
      0 < e.2.naxis1 ∧ e.2.naxis2 = e.2.naxis1 ∧ (∃ A : Affine, e.2.toSky = A.app) ∧
      ∀ p : ℝ × ℝ, 0 < p.1 → p.1 < e.2.naxis1 → 0 < p.2 → p.2 < e.2.naxis2 →
        rough e.2 (e.2.toSky p) = some true)
    (name band : String) :
    (name, band) ∈ findExposures headers sky bandlist ↔ band ∈ bandlist ∧
      ∃ (exps : List (String × Header ℝ)) (hd : Header ℝ), headers.lookup band = some exps ∧
        (name, hd) ∈ exps ∧ ∃ p : ℝ × ℝ, hd.toSky p = sky ∧
          0 < p.1 ∧ p.1 < hd.naxis1 ∧ 0 < p.2 ∧ p.2 < hd.naxis2 := by
  unfold findExposures
  rw [List.mem_flatMap]
  have hone : ∀ exps, headers.lookup band = some exps → ∀ e ∈ exps, (covers e.2 sky = true ↔
      ∃ p : ℝ × ℝ, e.2.toSky p = sky ∧ 0 < p.1 ∧ p.1 < e.2.naxis1 ∧ 0 < p.2 ∧ p.2 < e.2.naxis2) := by
    intro exps hl e he
    obtain ⟨hw, hsq, ⟨A, hA⟩, hr⟩ := H band exps hl e he
    obtain ⟨p, hp⟩ : ∃ p, A.app p = sky := by
      refine ⟨((A.m22 * (sky.1 - A.o1) - A.m12 * (sky.2 - A.o2)) / (A.m11 * A.m22 - A.m12 * A.m21),
        (A.m11 * (sky.2 - A.o2) - A.m21 * (sky.1 - A.o1)) / (A.m11 * A.m22 - A.m12 * A.m21)), ?_⟩
      have := A.det
      apply Prod.ext
      · simp only [Affine.app]; field_simp; ring
      · simp only [Affine.app]
        obtain ⟨d, hd⟩ : ∃ d, d = A.m11 * A.m22 - A.m12 * A.m21 := ⟨_, rfl⟩
        rw [← hd] at this ⊢
        field_simp
        rw [hd]; ring
    have hinj : ∀ q, A.app q = sky → q = p := by
      intro q hq
      have h1 := congrArg Prod.fst (hq.trans hp.symm)
      have h2 := congrArg Prod.snd (hq.trans hp.symm)
      simp only [Affine.app] at h1 h2
      have e1 : (A.m11 * A.m22 - A.m12 * A.m21) * (q.1 - p.1) = 0 := by
        linear_combination A.m22 * h1 - A.m12 * h2
      have e2 : (A.m11 * A.m22 - A.m12 * A.m21) * (q.2 - p.2) = 0 := by
        linear_combination A.m11 * h2 - A.m21 * h1
      have d1 := (mul_eq_zero.mp e1).resolve_left A.det
      have d2 := (mul_eq_zero.mp e2).resolve_left A.det
      apply Prod.ext <;> linarith
    have hsky : e.2.toSky p = sky := by rw [hA]; exact hp
    rw [← hsky, C73_frame e.2 A hA hw (by rw [hsq]; exact hw) p, hsq]
    constructor
    · rintro ⟨_, h1, h2, h3, h4⟩
      refine ⟨p, rfl, h1, h2, h3, ?_⟩
      rw [sub_self, zero_mul] at h4
      nlinarith
    · rintro ⟨q, hq, h1, h2, h3, h4⟩
      have hqp : q = p := hinj q (by rw [← hp, ← hA]; exact hq)
      subst hqp
      refine ⟨hr q h1 h2 h3 (by rw [hsq]; exact h4), h1, h2, h3, ?_⟩
      rw [sub_self, zero_mul]
      nlinarith
  constructor
  · rintro ⟨b, hb, hm⟩
    cases hl : headers.lookup b with
    | none => rw [hl] at hm; cases hm
    | some exps =>
      rw [hl] at hm
      obtain ⟨e, he, heq⟩ := List.mem_map.mp hm
      obtain ⟨he1, he2⟩ := List.mem_filter.mp he
      obtain ⟨rfl, rfl⟩ := Prod.mk.inj heq
      exact ⟨hb, exps, e.2, hl, he1, (hone exps hl e he1).mp he2⟩
  · rintro ⟨hb, exps, hd, hl, hmem, hp⟩
    refine ⟨band, hb, ?_⟩
    rw [hl]
    exact List.mem_map.mpr ⟨(name, hd), List.mem_filter.mpr ⟨hmem, (hone exps hl _ hmem).mpr hp⟩, rfl⟩

/-- The identity map. -/
def idAff : Affine := ⟨1, 0, 0, 1, 0, 0, by norm_num⟩

lemma idAff_app (p : ℝ × ℝ) : idAff.app p = p := by
  apply Prod.ext <;> simp [Affine.app, idAff]

/-- An image of the given size whose pixels are its sky positions. -/
def exHeader (w h : ℝ) : Header ℝ := ⟨w, h, none, idAff.app⟩

/-- C73 refuted for images that are not square: a wide image is listed for a position outside it, and
a tall image is not listed for a position inside it. -/
theorem C73_refuted :
    (("e", "b") ∈ findExposures [("b", [("e", exHeader 2 1)])] (3 / 2, 6 / 5) ["b"] ∧ ¬ (6 / 5 : ℝ) < 1) ∧
    (findExposures [("b", [("e", exHeader 1 2)])] ((9 / 10 : ℝ), 3 / 2) ["b"] = [] ∧
      (0 : ℝ) < 9 / 10 ∧ (9 / 10 : ℝ) < 1 ∧ (0 : ℝ) < 3 / 2 ∧ (3 / 2 : ℝ) < 2) := by
  refine ⟨⟨?_, by norm_num⟩, ?_, by norm_num, by norm_num, by norm_num, by norm_num⟩
  · have : covers (exHeader 2 1) (3 / 2, 6 / 5) = true := by
      have h := C73_frame (exHeader 2 1) idAff rfl (by norm_num [exHeader]) (by norm_num [exHeader])
        (3 / 2, 6 / 5)
      rw [show (exHeader 2 1).toSky (3 / 2, 6 / 5) = (3 / 2, 6 / 5) from idAff_app _] at h
      rw [h]
      norm_num [exHeader, rough]
    simp [findExposures, this]
  · have : covers (exHeader 1 2) ((9 / 10 : ℝ), 3 / 2) = false := by
      rw [Bool.eq_false_iff]
      have h := C73_frame (exHeader 1 2) idAff rfl (by norm_num [exHeader]) (by norm_num [exHeader])
        (9 / 10, 3 / 2)
      rw [show (exHeader 1 2).toSky (9 / 10, 3 / 2) = (9 / 10, 3 / 2) from idAff_app _] at h
      rw [Ne, h]
      norm_num [exHeader, rough]
    simp [findExposures, this]

/-- The hypotheses of `C73_square_partial` hold for a square image. -/
example : ∀ band exps, [("b", [("e", exHeader 2 2)])].lookup band = some exps → ∀ e ∈ exps,
      0 < e.2.naxis1 ∧ e.2.naxis2 = e.2.naxis1 ∧ (∃ A : Affine, e.2.toSky = A.app) ∧
      ∀ p : ℝ × ℝ, 0 < p.1 → p.1 < e.2.naxis1 → 0 < p.2 → p.2 < e.2.naxis2 →
        rough e.2 (e.2.toSky p) = some true := by
  intro band exps hl e he
  have : exps = [("e", exHeader 2 2)] := by
    by_cases hb : band = "b"
    · subst hb; simpa [List.lookup] using hl.symm
    · have : (band == "b") = false := by simpa using hb
      simp [List.lookup, this] at hl
  subst this
  obtain rfl : e = ("e", exHeader 2 2) := by simpa using he
  exact ⟨by norm_num [exHeader], rfl, ⟨idAff, rfl⟩, fun _ _ _ _ _ => rfl⟩

/-! ## C74: the box around a circle -/

/-- C74 (flat sky). In the flat approximation the box contains the circle. -/
theorem C74_flat_partial (ra dec radius : ℝ) (hc : 0 < Real.cos (deg2rad dec)) (hr : 0 ≤ radius)
    (p : ℝ × ℝ)
    (hp : ((p.1 - ra) * Real.cos (deg2rad dec)) ^ 2 + (p.2 - dec) ^ 2 ≤ radius ^ 2) :
    lo ((circleBox ra dec radius).map Prod.fst) ≤ p.1 ∧ p.1 ≤ hi ((circleBox ra dec radius).map Prod.fst) ∧
    lo ((circleBox ra dec radius).map Prod.snd) ≤ p.2 ∧ p.2 ≤ hi ((circleBox ra dec radius).map Prod.snd) := by
  obtain ⟨c, hcc⟩ : ∃ c, c = Real.cos (deg2rad dec) := ⟨_, rfl⟩
  rw [← hcc] at hc hp
  have h1 : |(p.1 - ra) * c| ≤ radius := abs_le_of_sq_le_sq (by nlinarith [sq_nonneg (p.2 - dec)]) hr
  have h2 : |p.2 - dec| ≤ radius := abs_le_of_sq_le_sq (by nlinarith [sq_nonneg ((p.1 - ra) * c)]) hr
  rw [abs_le] at h1 h2
  have h3 : p.1 - ra ≤ radius / c := by rw [le_div_iff₀ hc]; exact h1.2
  have h4 : -(radius / c) ≤ p.1 - ra := by rw [neg_le_iff_add_nonneg]; have : 0 ≤ ((p.1 - ra) * c + radius) / c := div_nonneg (by linarith) hc.le
                                           rwa [add_div, mul_div_cancel_right₀ _ hc.ne'] at this
  unfold circleBox
  rw [← hcc]
  have m1 : ra - radius / c ∈ [ra - radius / c, ra + radius / c, ra + radius / c, ra - radius / c] := by simp
  have m2 : ra + radius / c ∈ [ra - radius / c, ra + radius / c, ra + radius / c, ra - radius / c] := by simp
  have m3 : dec - radius ∈ [dec - radius, dec - radius, dec + radius, dec + radius] := by simp
  have m4 : dec + radius ∈ [dec - radius, dec - radius, dec + radius, dec + radius] := by simp
  simp only [List.map_cons, List.map_nil]
  exact ⟨(lo_le m1).trans (by linarith), (by linarith : p.1 ≤ ra + radius / c).trans (le_hi m2),
    (lo_le m3).trans (by linarith), (by linarith : p.2 ≤ dec + radius).trans (le_hi m4)⟩

/-- Cosine of the angle between two directions on the sky, all in radians. -/
noncomputable def cosSeparation (d1 d2 dα : ℝ) : ℝ :=
  Real.sin d1 * Real.sin d2 + Real.cos d1 * Real.cos d2 * Real.cos dα

lemma sin_div_lt {R c : ℝ} (hc0 : 0 < c) (hc1 : c < 1) (hR : 0 < R) (hx : R / c ≤ Real.pi) :
    Real.sin (R / c) < Real.sin R / c := by
  have hconc := strictConcaveOn_sin_Icc
  have h0 : (0 : ℝ) ∈ Set.Icc 0 Real.pi := ⟨le_refl _, Real.pi_pos.le⟩
  have h1 : R / c ∈ Set.Icc 0 Real.pi := ⟨(div_pos hR hc0).le, hx⟩
  have hne : R / c ≠ 0 := (div_pos hR hc0).ne'
  have := hconc.2 h1 h0 hne hc0 (by linarith : 0 < 1 - c) (by ring)
  simp only [smul_eq_mul, Real.sin_zero, mul_zero, add_zero] at this
  rw [mul_div_cancel₀ _ hc0.ne'] at this
  rw [lt_div_iff₀ hc0]
  linarith

/-- C74 refuted on the sphere. For every circle off the equator whose box does not go all the way
round, there is a point at exactly the radius from the centre whose right ascension is outside the
box: the box is too narrow. -/
theorem C74_refuted (ra dec radius : ℝ) (hd0 : 0 < dec) (hd1 : dec < 90) (hr : 0 < radius)
    (hwrap : radius / Real.cos (deg2rad dec) < 180) :
    ∃ p : ℝ × ℝ, cosSeparation (deg2rad dec) (deg2rad p.2) (deg2rad (p.1 - ra)) = Real.cos (deg2rad radius) ∧
      hi ((circleBox ra dec radius).map Prod.fst) < p.1 := by
  obtain ⟨k, hk⟩ : ∃ k : ℝ, k = Real.pi / 180 := ⟨_, rfl⟩
  have hk0 : 0 < k := by rw [hk]; have := Real.pi_pos; positivity
  have hdeg : ∀ x, deg2rad x = x * k := by intro x; rw [deg2rad, hk]
  have hpi : Real.pi = 180 * k := by rw [hk]; ring
  obtain ⟨D, hD⟩ : ∃ D, D = deg2rad dec := ⟨_, rfl⟩
  obtain ⟨R, hR⟩ : ∃ R, R = deg2rad radius := ⟨_, rfl⟩
  have hDk : D = dec * k := by rw [hD, hdeg]
  have hRk : R = radius * k := by rw [hR, hdeg]
  have hD0 : 0 < D := by rw [hDk]; positivity
  have hD1 : D < Real.pi / 2 := by rw [hDk, hpi]; nlinarith
  have hR0 : 0 < R := by rw [hRk]; positivity
  obtain ⟨c, hc⟩ : ∃ c, c = Real.cos D := ⟨_, rfl⟩
  have hc0 : 0 < c := by rw [hc]; exact Real.cos_pos_of_mem_Ioo ⟨by linarith [Real.pi_pos], hD1⟩
  have hc1 : c < 1 := by
    rw [hc, ← Real.cos_zero]
    exact Real.cos_lt_cos_of_nonneg_of_le_pi_div_two (le_refl _) hD1.le hD0
  have hbox : hi ((circleBox ra dec radius).map Prod.fst) = ra + radius / c := by
    unfold circleBox
    rw [← hD, ← hc]
    have hpos : 0 < radius / c := by positivity
    simp only [List.map_cons, List.map_nil, hi, List.foldl_cons, List.foldl_nil]
    rw [max_eq_right (by linarith : ra - radius / c ≤ ra + radius / c), max_self,
      max_eq_left (by linarith)]
  rw [hbox, ← hD, ← hR]
  rw [← hD, ← hc] at hwrap
  have hRc : R / c = radius / c * k := by rw [hRk]; ring
  have hRpi : R / c < Real.pi := by rw [hRc, hpi]; nlinarith
  by_cases hcap : R < Real.pi / 2 - D
  · -- the circle does not reach the pole: the tangent meridian
    have hcosR : 0 < Real.cos R := Real.cos_pos_of_mem_Ioo ⟨by linarith, by linarith⟩
    have hs1 : Real.sin D < Real.cos R := by
      rw [← Real.sin_pi_div_two_sub]
      exact Real.sin_lt_sin_of_lt_of_le_pi_div_two (by linarith) (by linarith) (by linarith)
    have hs2 : Real.sin R < c := by
      rw [hc, ← Real.sin_pi_div_two_sub]
      exact Real.sin_lt_sin_of_lt_of_le_pi_div_two (by linarith) (by linarith) hcap
    have hsD : 0 < Real.sin D := Real.sin_pos_of_pos_of_lt_pi hD0 (by linarith [Real.pi_pos])
    have hsR : 0 < Real.sin R := Real.sin_pos_of_pos_of_lt_pi hR0 (by linarith [Real.pi_pos])
    obtain ⟨u, hu⟩ : ∃ u, u = Real.sin D / Real.cos R := ⟨_, rfl⟩
    obtain ⟨v, hv⟩ : ∃ v, v = Real.sin R / c := ⟨_, rfl⟩
    have hu0 : 0 < u := by rw [hu]; positivity
    have hu1 : u < 1 := by rw [hu, div_lt_one hcosR]; exact hs1
    have hv0 : 0 < v := by rw [hv]; positivity
    have hv1 : v < 1 := by rw [hv, div_lt_one hc0]; exact hs2
    refine ⟨(ra + Real.arcsin v / k, Real.arcsin u / k), ?_, ?_⟩
    · rw [hdeg, hdeg]
      simp only [add_sub_cancel_left, div_mul_cancel₀ _ hk0.ne']
      unfold cosSeparation
      rw [Real.sin_arcsin (by linarith) hu1.le, Real.cos_arcsin, Real.cos_arcsin, ← hc]
      have hK : Real.cos R ^ 2 - Real.sin D ^ 2 = c ^ 2 - Real.sin R ^ 2 := by
        rw [hc]
        linear_combination Real.sin_sq_add_cos_sq R - Real.sin_sq_add_cos_sq D
      have hKpos : 0 < c ^ 2 - Real.sin R ^ 2 := by nlinarith
      have e1 : Real.sqrt (1 - u ^ 2) = Real.sqrt (c ^ 2 - Real.sin R ^ 2) / Real.cos R := by
        rw [← hK, hu, show 1 - (Real.sin D / Real.cos R) ^ 2 =
          (Real.cos R ^ 2 - Real.sin D ^ 2) / Real.cos R ^ 2 by field_simp,
          Real.sqrt_div' _ (by positivity), Real.sqrt_sq hcosR.le]
      have e2 : Real.sqrt (1 - v ^ 2) = Real.sqrt (c ^ 2 - Real.sin R ^ 2) / c := by
        rw [hv, show 1 - (Real.sin R / c) ^ 2 = (c ^ 2 - Real.sin R ^ 2) / c ^ 2 by field_simp,
          Real.sqrt_div' _ (by positivity), Real.sqrt_sq hc0.le]
      rw [e1, e2, hu]
      have hsq := Real.mul_self_sqrt hKpos.le
      generalize Real.sqrt (c ^ 2 - Real.sin R ^ 2) = S at hsq
      field_simp
      linear_combination hsq - hK
    · show ra + radius / c < ra + Real.arcsin v / k
      have h1 : R / c < Real.arcsin v := by
        have hhalf : R / c < Real.pi / 2 := by
          by_contra hcon
          push Not at hcon
          -- concavity again: `sin R ≥ (2/π) R ≥ c`
          have h2 := Real.mul_le_sin hR0.le (by linarith : R ≤ Real.pi / 2)
          have h3 : Real.pi / 2 * c ≤ R := by rwa [le_div_iff₀ hc0] at hcon
          have h4 : c ≤ 2 / Real.pi * R := by
            rw [div_mul_eq_mul_div, le_div_iff₀ Real.pi_pos]
            linarith
          linarith
        rw [Real.lt_arcsin_iff_sin_lt' ⟨by linarith [div_pos hR0 hc0, Real.pi_pos], hhalf⟩, hv]
        exact sin_div_lt hc0 hc1 hR0 hRpi.le
      rw [hRc] at h1
      have : radius / c < Real.arcsin v / k := by rw [lt_div_iff₀ hk0]; exact h1
      linarith
  · -- the circle contains the pole: a point on the opposite meridian
    push Not at hcap
    refine ⟨(ra + 180, 180 - dec - radius), ?_, ?_⟩
    · rw [hdeg, hdeg]
      simp only [add_sub_cancel_left]
      rw [← hpi]
      unfold cosSeparation
      rw [Real.cos_pi, show (180 - dec - radius) * k = Real.pi - (D + R) by rw [hpi, hDk, hRk]; ring,
        Real.sin_pi_sub, Real.cos_pi_sub]
      rw [show Real.sin D * Real.sin (D + R) + Real.cos D * -Real.cos (D + R) * -1 =
        Real.cos (D + R) * Real.cos D + Real.sin (D + R) * Real.sin D by ring, ← Real.cos_sub]
      congr 1; ring
    · show ra + radius / c < ra + 180
      linarith

/-! ## C75: exposures of a patch -/

/-- C75. What `StorePatch` finds: an exposure is listed exactly when it is in a requested band, some
corner of the region's box is strictly inside the image, and some super-pixel has a corner pixel in
the region. -/
theorem C75_listed {K : Type} [Field K] [LinearOrder K] (wcs : List (String × List (String × Wcs K)))
    (reg : Reg K) (s n : Nat) (bandlist : List String) (name band : String) :
    (name, band) ∈ storeFindExposures wcs reg s n bandlist ↔ band ∈ bandlist ∧
      ∃ (exps : List (String × Wcs K)) (w : Wcs K), wcs.lookup band = some exps ∧ (name, w) ∈ exps ∧
        (∃ q ∈ reg.box, 0 < (w.toPix q).1 ∧ (w.toPix q).1 < ((n * s : Nat) : K) ∧
          0 < (w.toPix q).2 ∧ (w.toPix q).2 < ((n * s : Nat) : K)) ∧
        ∃ i < n, ∃ j < n, ∃ p ∈ cornerPixels s i j, reg.corner w p = true := by
  have h1 : ∀ w : Wcs K, boxInImage reg w ((n * s : Nat) : K) = true ↔ ∃ q ∈ reg.box,
      0 < (w.toPix q).1 ∧ (w.toPix q).1 < ((n * s : Nat) : K) ∧
          0 < (w.toPix q).2 ∧ (w.toPix q).2 < ((n * s : Nat) : K) := by
    intro w
    simp [boxInImage, List.any_eq_true, and_assoc]
  have h2 : ∀ w : Wcs K, (superPixels reg w s n).isEmpty = false ↔
      ∃ i < n, ∃ j < n, ∃ p ∈ cornerPixels s i j, reg.corner w p = true := by
    intro w
    rw [List.isEmpty_eq_false_iff_exists_mem]
    constructor
    · rintro ⟨⟨i, j⟩, hm⟩
      obtain ⟨hm1, hm2⟩ := List.mem_filter.mp hm
      obtain ⟨i', hi', hm1⟩ := List.mem_flatMap.mp hm1
      obtain ⟨j', hj', heq⟩ := List.mem_map.mp hm1
      obtain ⟨rfl, rfl⟩ := Prod.mk.inj heq
      obtain ⟨p, hp, hp2⟩ := List.any_eq_true.mp hm2
      exact ⟨i', List.mem_range.mp hi', j', List.mem_range.mp hj', p, hp, hp2⟩
    · rintro ⟨i, hi, j, hj, p, hp, hp2⟩
      exact ⟨(i, j), List.mem_filter.mpr ⟨List.mem_flatMap.mpr ⟨i, List.mem_range.mpr hi,
        List.mem_map.mpr ⟨j, List.mem_range.mpr hj, rfl⟩⟩, List.any_eq_true.mpr ⟨p, hp, hp2⟩⟩⟩
  unfold storeFindExposures
  rw [List.mem_flatMap]
  constructor
  · rintro ⟨b, hb, hm⟩
    cases hl : wcs.lookup b with
    | none => rw [hl] at hm; cases hm
    | some exps =>
      rw [hl] at hm
      obtain ⟨e, he, heq⟩ := List.mem_map.mp hm
      obtain ⟨he1, he2⟩ := List.mem_filter.mp he
      obtain ⟨rfl, rfl⟩ := Prod.mk.inj heq
      rw [Bool.and_eq_true, Bool.not_eq_true'] at he2
      exact ⟨hb, exps, e.2, hl, he1, (h1 _).mp he2.1, (h2 _).mp he2.2⟩
  · rintro ⟨hb, exps, w, hl, hmem, hq, hi⟩
    refine ⟨band, hb, ?_⟩
    rw [hl]
    refine List.mem_map.mpr ⟨(name, w), List.mem_filter.mpr ⟨hmem, ?_⟩, rfl⟩
    rw [Bool.and_eq_true, Bool.not_eq_true']
    exact ⟨(h1 w).mpr hq, (h2 w).mpr hi⟩

/-- Pixels are sky positions. -/
def idWcs : Wcs ℚ := ⟨id, id⟩

/-- C75 refuted: an image that lies entirely inside the region is not found, although all its pixels
are in the region and would be selected; nor is one that the region crosses from side to side. -/
theorem C75_refuted :
    storeFindExposures [("b", [("e", idWcs)])] (rectangle (-1) 20 (-1) 20) 4 2 ["b"] = [] ∧
    (findPixels (rectangle (-1) 20 (-1) 20) idWcs 4 2).length = 64 ∧
    storeFindExposures [("b", [("e", idWcs)])] (rectangle (-1) 20 1 5) 4 2 ["b"] = [] ∧
    (findPixels (rectangle (-1) 20 1 5) idWcs 4 2).length = 64 := by
  decide +kernel

/-- A case in which an exposure is found. -/
example : storeFindExposures [("b", [("e", idWcs)])] (rectangle (-1) 5 (-1) 5) 4 2 ["b"] = [("e", "b")] := by
  decide +kernel

/-! ## C76: pixels of a circle -/

/-- Distance in the image plane. -/
noncomputable def pixDist (p q : ℝ × ℝ) : ℝ := ‖(⟨p.1 - q.1, p.2 - q.2⟩ : ℂ)‖

lemma pixDist_sq (p q : ℝ × ℝ) : pixDist p q ^ 2 = (p.1 - q.1) ^ 2 + (p.2 - q.2) ^ 2 := by
  unfold pixDist
  rw [Complex.sq_norm, Complex.normSq_mk]; ring

lemma pixDist_nonneg (p q : ℝ × ℝ) : 0 ≤ pixDist p q := norm_nonneg _

lemma pixDist_triangle (p q r : ℝ × ℝ) : pixDist p r ≤ pixDist p q + pixDist q r := by
  unfold pixDist
  have : (⟨p.1 - r.1, p.2 - r.2⟩ : ℂ) = ⟨p.1 - q.1, p.2 - q.2⟩ + ⟨q.1 - r.1, q.2 - r.2⟩ := by
    apply Complex.ext <;> simp
  rw [this]; exact norm_add_le _ _

lemma pixDist_comm (p q : ℝ × ℝ) : pixDist p q = pixDist q p := by
  have h : pixDist p q ^ 2 = pixDist q p ^ 2 := by rw [pixDist_sq, pixDist_sq]; ring
  exact (sq_eq_sq₀ (pixDist_nonneg _ _) (pixDist_nonneg _ _)).mp h

lemma circle_corner (box : List (ℝ × ℝ)) (ra dec radius : ℝ) (w : Wcs ℝ) (p : ℝ × ℝ) :
    (circle box ra dec radius).corner w p = true ↔
      pixDist p (w.toPix (ra, dec)) < pixDist (w.toPix (ra, dec + radius)) (w.toPix (ra, dec)) := by
  unfold circle
  simp only [decide_eq_true_iff]
  rw [← sq_lt_sq₀ (pixDist_nonneg _ _) (pixDist_nonneg _ _), pixDist_sq, pixDist_sq]
  constructor <;> intro h <;> nlinarith

lemma mem_corners (s i j : Nat) (p : ℝ × ℝ) : p ∈ cornerPixels (K := ℝ) s i j ↔
    ∃ a b : Nat, (a = 0 ∨ a = s - 1) ∧ (b = 0 ∨ b = s - 1) ∧
      p = (((i * s + a : Nat) : ℝ), ((j * s + b : Nat) : ℝ)) := by
  simp only [cornerPixels, Storage.cornerOffsets, List.map_cons, List.map_nil, List.mem_cons,
    List.not_mem_nil, or_false, Nat.zero_mul, Nat.one_mul]
  constructor
  · rintro (rfl | rfl | rfl | rfl)
    · exact ⟨0, 0, by simp, by simp, rfl⟩
    · exact ⟨s - 1, 0, by simp, by simp, rfl⟩
    · exact ⟨s - 1, s - 1, by simp, by simp, rfl⟩
    · exact ⟨0, s - 1, by simp, by simp, rfl⟩
  · rintro ⟨a, b, rfl | rfl, rfl | rfl, rfl⟩ <;> simp

lemma mem_findPixels {K : Type} [Field K] [LinearOrder K] (reg : Reg K) (w : Wcs K) (s n : Nat) (x y : Nat) :
    (x, y) ∈ findPixels reg w s n ↔ 0 < s ∧ x < n * s ∧ y < n * s ∧
      ∃ p ∈ cornerPixels s (x / s) (y / s), reg.corner w p = true := by
  unfold findPixels
  rw [List.mem_flatMap]
  constructor
  · rintro ⟨⟨i, j⟩, hm, hxy⟩
    obtain ⟨hm1, hm2⟩ := List.mem_filter.mp hm
    obtain ⟨i', hi', hm1⟩ := List.mem_flatMap.mp hm1
    obtain ⟨j', hj', heq⟩ := List.mem_map.mp hm1
    obtain ⟨rfl, rfl⟩ := Prod.mk.inj heq
    obtain ⟨a, ha, hxy⟩ := List.mem_flatMap.mp hxy
    obtain ⟨b, hb, hxy⟩ := List.mem_map.mp hxy
    rw [List.mem_range] at ha hb hi' hj'
    obtain ⟨rfl, rfl⟩ := Prod.mk.inj hxy
    have hs : 0 < s := by omega
    have d1 : (i' * s + a) / s = i' := by
      rw [Nat.add_comm, Nat.add_mul_div_right _ _ hs, Nat.div_eq_of_lt ha, Nat.zero_add]
    have d2 : (j' * s + b) / s = j' := by
      rw [Nat.add_comm, Nat.add_mul_div_right _ _ hs, Nat.div_eq_of_lt hb, Nat.zero_add]
    have l1 : i' * s + s ≤ n * s := by rw [← Nat.succ_mul]; exact Nat.mul_le_mul_right _ hi'
    have l2 : j' * s + s ≤ n * s := by rw [← Nat.succ_mul]; exact Nat.mul_le_mul_right _ hj'
    refine ⟨hs, by show i' * s + a < n * s; omega, by show j' * s + b < n * s; omega, ?_⟩
    show ∃ p ∈ cornerPixels s ((i' * s + a) / s) ((j' * s + b) / s), reg.corner w p = true
    rw [d1, d2]
    obtain ⟨p, hp, hp2⟩ := List.any_eq_true.mp hm2
    exact ⟨p, hp, hp2⟩
  · rintro ⟨hs, hx, hy, p, hp, hp2⟩
    refine ⟨(x / s, y / s), List.mem_filter.mpr ⟨List.mem_flatMap.mpr ⟨x / s, ?_,
      List.mem_map.mpr ⟨y / s, ?_, rfl⟩⟩, List.any_eq_true.mpr ⟨p, hp, hp2⟩⟩, ?_⟩
    · rw [List.mem_range, Nat.div_lt_iff_lt_mul hs]; exact hx
    · rw [List.mem_range, Nat.div_lt_iff_lt_mul hs]; exact hy
    · refine List.mem_flatMap.mpr ⟨x % s, List.mem_range.mpr (Nat.mod_lt _ hs),
        List.mem_map.mpr ⟨y % s, List.mem_range.mpr (Nat.mod_lt _ hs), ?_⟩⟩
      simp only [Prod.mk.injEq]
      exact ⟨by rw [Nat.mul_comm]; exact Nat.div_add_mod x s, by rw [Nat.mul_comm]; exact Nat.div_add_mod y s⟩

/-- C76 (no pixel twice). -/
theorem C76_nodup {K : Type} [Field K] [LinearOrder K] (reg : Reg K) (w : Wcs K) (s n : Nat) :
    (findPixels reg w s n).Nodup := by
  unfold findPixels
  rw [List.nodup_flatMap]
  constructor
  · intro ij _
    rw [List.nodup_flatMap]
    constructor
    · intro a _
      apply List.Nodup.map _ List.nodup_range
      intro b b' h
      have := (Prod.mk.inj h).2
      omega
    · apply List.Pairwise.imp _ List.nodup_range
      intro a a' hne
      simp only [Function.onFun, List.disjoint_left]
      intro p hp hp'
      obtain ⟨b, _, rfl⟩ := List.mem_map.mp hp
      obtain ⟨b', _, heq⟩ := List.mem_map.mp hp'
      have := (Prod.mk.inj heq).1
      omega
  · have hnd : (superPixels reg w s n).Nodup := by
      unfold superPixels
      apply List.Nodup.filter
      rw [List.nodup_flatMap]
      constructor
      · intro i _
        apply List.Nodup.map _ List.nodup_range
        intro b b' h
        exact (Prod.mk.inj h).2
      · apply List.Pairwise.imp _ List.nodup_range
        intro a a' hne
        simp only [Function.onFun, List.disjoint_left]
        intro p hp hp'
        obtain ⟨b, _, rfl⟩ := List.mem_map.mp hp
        obtain ⟨b', _, heq⟩ := List.mem_map.mp hp'
        exact hne (Prod.mk.inj heq).1.symm
    apply List.Pairwise.imp _ hnd
    rintro ⟨i, j⟩ ⟨i', j'⟩ hne
    simp only [Function.onFun, List.disjoint_left]
    intro p hp hp'
    obtain ⟨a, ha, hp⟩ := List.mem_flatMap.mp hp
    obtain ⟨b, hb, rfl⟩ := List.mem_map.mp hp
    obtain ⟨a', ha', hp'⟩ := List.mem_flatMap.mp hp'
    obtain ⟨b', hb', heq⟩ := List.mem_map.mp hp'
    rw [List.mem_range] at ha hb ha' hb'
    obtain ⟨h1, h2⟩ := Prod.mk.inj heq
    have hs : 0 < s := by omega
    apply hne
    have q1 : (i * s + a) / s = i := by
      rw [Nat.add_comm, Nat.add_mul_div_right _ _ hs, Nat.div_eq_of_lt ha, Nat.zero_add]
    have q2 : (i' * s + a') / s = i' := by
      rw [Nat.add_comm, Nat.add_mul_div_right _ _ hs, Nat.div_eq_of_lt ha', Nat.zero_add]
    have q3 : (j * s + b) / s = j := by
      rw [Nat.add_comm, Nat.add_mul_div_right _ _ hs, Nat.div_eq_of_lt hb, Nat.zero_add]
    have q4 : (j' * s + b') / s = j' := by
      rw [Nat.add_comm, Nat.add_mul_div_right _ _ hs, Nat.div_eq_of_lt hb', Nat.zero_add]
    change i' * s + a' = i * s + a at h1
    change j' * s + b' = j * s + b at h2
    rw [h1] at q2
    rw [h2] at q4
    simp only [Prod.mk.injEq]
    exact ⟨q1.symm.trans q2, q3.symm.trans q4⟩

/-- C76 (completeness up to a margin). Every pixel of the image that is inside the circle by more than
half the diagonal of a super-pixel is selected. -/
theorem C76_inside_partial (box : List (ℝ × ℝ)) (ra dec radius : ℝ) (w : Wcs ℝ) (s n : Nat) (hs : 0 < s)
    (x y : Nat) (hx : x < n * s) (hy : y < n * s)
    (h : pixDist ((x : ℝ), (y : ℝ)) (w.toPix (ra, dec)) + ((s : ℝ) - 1) / Real.sqrt 2 <
      pixDist (w.toPix (ra, dec + radius)) (w.toPix (ra, dec))) :
    (x, y) ∈ findPixels (circle box ra dec radius) w s n := by
  rw [mem_findPixels]
  refine ⟨hs, hx, hy, ?_⟩
  have near : ∀ a : Nat, a < s → ∃ c : Nat, (c = 0 ∨ c = s - 1) ∧ ((a : ℝ) - c) ^ 2 ≤ (((s : ℝ) - 1) / 2) ^ 2 := by
    intro a ha
    have ha' : (a : ℝ) ≤ s - 1 := by
      have : a + 1 ≤ s := ha
      have : ((a + 1 : Nat) : ℝ) ≤ s := by exact_mod_cast this
      push_cast at this; linarith
    have ha0 : (0 : ℝ) ≤ a := by positivity
    have hc : ((s - 1 : Nat) : ℝ) = s - 1 := by rw [Nat.cast_sub hs]; simp
    by_cases hh : (a : ℝ) ≤ ((s : ℝ) - 1) / 2
    · exact ⟨0, Or.inl rfl, by push_cast; nlinarith⟩
    · push Not at hh
      exact ⟨s - 1, Or.inr rfl, by rw [hc]; nlinarith⟩
  obtain ⟨a, ha, ha2⟩ := near (x % s) (Nat.mod_lt _ hs)
  obtain ⟨b, hb, hb2⟩ := near (y % s) (Nat.mod_lt _ hs)
  refine ⟨(((x / s * s + a : Nat) : ℝ), ((y / s * s + b : Nat) : ℝ)),
    (mem_corners _ _ _ _).mpr ⟨a, b, ha, hb, rfl⟩, ?_⟩
  rw [circle_corner]
  have ex : (x : ℝ) = ((x / s * s : Nat) : ℝ) + ((x % s : Nat) : ℝ) := by
    rw [← Nat.cast_add, Nat.mul_comm, Nat.div_add_mod]
  have ey : (y : ℝ) = ((y / s * s : Nat) : ℝ) + ((y % s : Nat) : ℝ) := by
    rw [← Nat.cast_add, Nat.mul_comm, Nat.div_add_mod]
  have hnear : pixDist (((x / s * s + a : Nat) : ℝ), ((y / s * s + b : Nat) : ℝ)) ((x : ℝ), (y : ℝ)) ≤
      ((s : ℝ) - 1) / Real.sqrt 2 := by
    have h1 : (1 : ℝ) ≤ s := by exact_mod_cast hs
    have hs2 : 0 < Real.sqrt 2 := Real.sqrt_pos.mpr (by norm_num)
    apply (sq_le_sq₀ (pixDist_nonneg _ _) (div_nonneg (by linarith) hs2.le)).mp
    rw [pixDist_sq, div_pow, Real.sq_sqrt (by norm_num : (0 : ℝ) ≤ 2)]
    rw [ex, ey]
    push_cast
    push_cast at ha2 hb2
    nlinarith
  have := pixDist_triangle (((x / s * s + a : Nat) : ℝ), ((y / s * s + b : Nat) : ℝ)) ((x : ℝ), (y : ℝ))
    (w.toPix (ra, dec))
  linarith

/-- C76 (soundness up to a margin). Every selected pixel is in the image and within the radius plus
one super-pixel diagonal of the centre. -/
theorem C76_near (box : List (ℝ × ℝ)) (ra dec radius : ℝ) (w : Wcs ℝ) (s n x y : Nat)
    (h : (x, y) ∈ findPixels (circle box ra dec radius) w s n) :
    x < n * s ∧ y < n * s ∧ pixDist ((x : ℝ), (y : ℝ)) (w.toPix (ra, dec)) <
      pixDist (w.toPix (ra, dec + radius)) (w.toPix (ra, dec)) + ((s : ℝ) - 1) * Real.sqrt 2 := by
  rw [mem_findPixels] at h
  obtain ⟨hs, hx, hy, p, hp, hp2⟩ := h
  refine ⟨hx, hy, ?_⟩
  rw [circle_corner] at hp2
  obtain ⟨a, b, ha, hb, rfl⟩ := (mem_corners _ _ _ _).mp hp
  have far : ∀ c m : Nat, (c = 0 ∨ c = s - 1) → m < s → ((m : ℝ) - c) ^ 2 ≤ ((s : ℝ) - 1) ^ 2 := by
    intro c m hc hm
    have hm' : (m : ℝ) ≤ s - 1 := by
      have : m + 1 ≤ s := hm
      have : ((m + 1 : Nat) : ℝ) ≤ s := by exact_mod_cast this
      push_cast at this; linarith
    have hm0 : (0 : ℝ) ≤ m := by positivity
    have hcc : ((s - 1 : Nat) : ℝ) = s - 1 := by rw [Nat.cast_sub hs]; simp
    rcases hc with rfl | rfl
    · push_cast; nlinarith
    · rw [hcc]; nlinarith
  have ex : (x : ℝ) = ((x / s * s : Nat) : ℝ) + ((x % s : Nat) : ℝ) := by
    rw [← Nat.cast_add, Nat.mul_comm, Nat.div_add_mod]
  have ey : (y : ℝ) = ((y / s * s : Nat) : ℝ) + ((y % s : Nat) : ℝ) := by
    rw [← Nat.cast_add, Nat.mul_comm, Nat.div_add_mod]
  have hnear : pixDist ((x : ℝ), (y : ℝ)) (((x / s * s + a : Nat) : ℝ), ((y / s * s + b : Nat) : ℝ)) ≤
      ((s : ℝ) - 1) * Real.sqrt 2 := by
    have h1 : (1 : ℝ) ≤ s := by exact_mod_cast hs
    apply (sq_le_sq₀ (pixDist_nonneg _ _) (mul_nonneg (by linarith) (Real.sqrt_nonneg _))).mp
    rw [pixDist_sq, mul_pow, Real.sq_sqrt (by norm_num : (0 : ℝ) ≤ 2)]
    have f1 := far a (x % s) ha (Nat.mod_lt _ hs)
    have f2 := far b (y % s) hb (Nat.mod_lt _ hs)
    rw [ex, ey]
    push_cast
    push_cast at f1 f2
    nlinarith
  have := pixDist_triangle ((x : ℝ), (y : ℝ)) (((x / s * s + a : Nat) : ℝ), ((y / s * s + b : Nat) : ℝ))
    (w.toPix (ra, dec))
  linarith

/-- C76 refuted: a circle that fits between the corner pixels of a super-pixel selects nothing, even
though it contains pixels; the exposure is then skipped. -/
theorem C76_refuted :
    findPixels (circle [(2, 2), (5, 2), (5, 5), (2, 5)] (7 / 2) (7 / 2) (3 / 2)) idWcs 8 2 = [] ∧
    (circle [(2, 2), (5, 2), (5, 5), (2, 5)] (7 / 2) (7 / 2) (3 / 2)).corner idWcs (3, 3) = true ∧
    storeFindExposures [("b", [("e", idWcs)])]
      (circle [(2, 2), (5, 2), (5, 5), (2, 5)] (7 / 2) (7 / 2) (3 / 2)) 8 2 ["b"] = [] := by
  decide +kernel

/-- The corners used here are the ones the store computes. -/
theorem C76_corners {s nx ny ii jj : Nat} (hx : s ∣ nx) (hy : s ∣ ny) (hnx : nx ≤ 32768)
    (hny : ny ≤ 32768) (hi : ii < nx / s) (hj : jj < ny / s) :
    cornerPixels (K := ℚ) s ii jj = (Storage.superpixelCorners s nx ny ii jj).filterMap fun c =>
      c.map fun c => ((c.1 : ℚ), (c.2 : ℚ)) := by
  have hs : 0 < s := by
    rcases Nat.eq_zero_or_pos s with rfl | h
    · simp at hi
    · exact h
  have hk0 : 0 < s ^ 2 := by positivity
  obtain ⟨g1, g2⟩ := Storage.pixelCoordinates_some hi hj hk0
  have lx := Storage.coord_lt hx hi hs
  have ly := Storage.coord_lt hy hj hs
  rw [Nat.zero_div, Storage.toInt16, if_pos (by omega)] at g1
  rw [Nat.zero_mod, Storage.toInt16, if_pos (by omega)] at g2
  have first : ∀ (l : List (List (List (Option Nat)))) (v : Nat), Storage.at3 l ii jj 0 = some (some v) →
      (l[ii]?.bind fun r => (r[jj]?).bind fun p => (p[0]?).bind id) = some v := by
    intro l v h
    unfold Storage.at3 at h
    obtain ⟨r, e1, h⟩ := Option.bind_eq_some_iff.1 h
    obtain ⟨p, e2, e3⟩ := Option.bind_eq_some_iff.1 h
    simp [e1, e2, e3]
  have f1 := first _ _ g1
  have f2 := first _ _ g2
  unfold cornerPixels Storage.superpixelCorners
  simp only [f1, f2, Storage.cornerOffsets]
  simp

end Forcepho.Region

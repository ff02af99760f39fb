import Verif.Slow.Model
import Verif.Bounds.Props
import Verif.Postprocess.Postop

/-! # C126: what the shape columns of a catalog mean

The matrices with which sources are rendered (sources.py:1025-1050, gaussmodel.py:534-561), the conversion
`rectify_jades` (utils/catalog.py:151-169), region files (utils/ds9.py, postprocess.py:400-423).  Positions on
the sky relative to a source are pairs (arcsec to the east, arcsec to the north), which is what the matrix
`scale` of a stamp is applied to.  Over the reals. -/

set_option autoImplicit false
set_option linter.unusedSectionVars false

namespace Forcepho.Shapes

open Forcepho.Kernel (M22)
open Forcepho.Slow (rotationMatrix scaleMatrix rotationMatrixDeriv scaleMatrixDeriv dotDot)

/-- The covariance matrix on the sky of a gaussian of radius `r` (`radii**2 * eye(2)`, sources.py:654 and 865) in a
source with columns `q` and `pa`: `R S (r^2 I) S^T R^T` (gaussmodel.py:107-112 with a unit `scale`). -/
noncomputable def skyCov (q pa r : ℝ) : M22 :=
  let s := scaleMatrix q
  let t := rotationMatrix pa
  dotDot t (dotDot s ⟨r ^ 2, 0, 0, r ^ 2⟩ ⟨s.v11, s.v21, s.v12, s.v22⟩) ⟨t.v11, t.v21, t.v12, t.v22⟩

/-- The variance of a light distribution with covariance `c` along the direction `φ`, in radians north of east. -/
noncomputable def along (c : M22) (φ : ℝ) : ℝ :=
  Real.cos φ * (c.v11 * Real.cos φ + c.v12 * Real.sin φ) + Real.sin φ * (c.v21 * Real.cos φ + c.v22 * Real.sin φ)

/-- C126, the meaning of the columns: along the direction `φ` north of east the variance of a rendered gaussian is
that of an ellipse with long axis at `pa` north of east and axes `r / q` and `r q`. -/
theorem C126_axes (q pa r φ : ℝ) :
    along (skyCov q pa r) φ = r ^ 2 * (Real.cos (φ - pa) ^ 2 / q ^ 2 + q ^ 2 * Real.sin (φ - pa) ^ 2) := by
  simp only [along, skyCov, dotDot, scaleMatrix, rotationMatrix, Real.cos_sub, Real.sin_sub]
  by_cases hq : q = 0
  · subst hq
    simp
  · field_simp
    ring

/-- C126: the extremes.  For a column `q` between 0 and 1 the light is widest along `pa` north of east, narrowest
across it; the ratio of the axes (standard deviations) is `q` squared, and the area of the ellipse does not
depend on `q` and `pa`. -/
theorem C126_extremes {q : ℝ} (h0 : 0 < q) (h1 : q ≤ 1) (pa r : ℝ) :
    (∀ φ, along (skyCov q pa r) φ ≤ along (skyCov q pa r) pa) ∧
    (∀ φ, along (skyCov q pa r) (pa + Real.pi / 2) ≤ along (skyCov q pa r) φ) ∧
    along (skyCov q pa r) (pa + Real.pi / 2) = (q ^ 2) ^ 2 * along (skyCov q pa r) pa ∧
    along (skyCov q pa r) pa = (r / q) ^ 2 ∧
    along (skyCov q pa r) (pa + Real.pi / 2) * along (skyCov q pa r) pa = r ^ 4 := by
  have hq2 : q ^ 2 ≤ 1 := pow_le_one₀ h0.le h1
  have hp : 0 < q ^ 2 := by positivity
  have hi : q ^ 2 ≤ 1 / q ^ 2 := by rw [le_div_iff₀ hp]; nlinarith
  have e1 : along (skyCov q pa r) pa = r ^ 2 * (1 / q ^ 2) := by
    rw [C126_axes]; simp
  have e2 : along (skyCov q pa r) (pa + Real.pi / 2) = r ^ 2 * q ^ 2 := by
    rw [C126_axes]; simp
  have hr : 0 ≤ r ^ 2 := sq_nonneg r
  refine ⟨?_, ?_, ?_, ?_, ?_⟩
  · intro φ
    rw [e1, C126_axes]
    apply mul_le_mul_of_nonneg_left _ hr
    have hs := Real.sin_sq_add_cos_sq (φ - pa)
    have : Real.cos (φ - pa) ^ 2 = 1 - Real.sin (φ - pa) ^ 2 := by linarith
    rw [this, sub_div]
    have hsin := sq_nonneg (Real.sin (φ - pa))
    have : q ^ 2 * Real.sin (φ - pa) ^ 2 ≤ 1 / q ^ 2 * Real.sin (φ - pa) ^ 2 :=
      mul_le_mul_of_nonneg_right hi hsin
    have e : Real.sin (φ - pa) ^ 2 / q ^ 2 = 1 / q ^ 2 * Real.sin (φ - pa) ^ 2 := by ring
    rw [e]
    linarith
  · intro φ
    rw [e2, C126_axes]
    apply mul_le_mul_of_nonneg_left _ hr
    have hs := Real.sin_sq_add_cos_sq (φ - pa)
    have hc := sq_nonneg (Real.cos (φ - pa))
    have : q ^ 2 * Real.cos (φ - pa) ^ 2 ≤ 1 / q ^ 2 * Real.cos (φ - pa) ^ 2 :=
      mul_le_mul_of_nonneg_right hi hc
    have e : Real.cos (φ - pa) ^ 2 / q ^ 2 = 1 / q ^ 2 * Real.cos (φ - pa) ^ 2 := by ring
    have e' : q ^ 2 * Real.sin (φ - pa) ^ 2 = q ^ 2 - q ^ 2 * Real.cos (φ - pa) ^ 2 := by
      rw [← mul_one_sub]; congr 1; linarith
    rw [e, e']
    linarith
  · rw [e1, e2]; field_simp
  · rw [e1]; field_simp
  · rw [e1, e2]; field_simp

/-- C126: the derivative matrices are the derivatives, entry by entry, of the scale matrix (away from zero) and of
the rotation matrix. -/
theorem C126_derivs (q t : ℝ) :
    (q ≠ 0 → HasDerivAt (fun x => (scaleMatrix x).v11) (scaleMatrixDeriv q).v11 q ∧
      HasDerivAt (fun x => (scaleMatrix x).v12) (scaleMatrixDeriv q).v12 q ∧
      HasDerivAt (fun x => (scaleMatrix x).v21) (scaleMatrixDeriv q).v21 q ∧
      HasDerivAt (fun x => (scaleMatrix x).v22) (scaleMatrixDeriv q).v22 q) ∧
    HasDerivAt (fun x => (rotationMatrix x).v11) (rotationMatrixDeriv t).v11 t ∧
    HasDerivAt (fun x => (rotationMatrix x).v12) (rotationMatrixDeriv t).v12 t ∧
    HasDerivAt (fun x => (rotationMatrix x).v21) (rotationMatrixDeriv t).v21 t ∧
    HasDerivAt (fun x => (rotationMatrix x).v22) (rotationMatrixDeriv t).v22 t := by
  refine ⟨fun hq => ⟨?_, hasDerivAt_const q (0 : ℝ), hasDerivAt_const q (0 : ℝ), hasDerivAt_id q⟩,
    Real.hasDerivAt_cos t, (Real.hasDerivAt_sin t).neg, Real.hasDerivAt_sin t, Real.hasDerivAt_cos t⟩
  have := hasDerivAt_inv hq
  simpa [scaleMatrix, scaleMatrixDeriv, one_div, neg_div] using this

/-- C126, where the description of input catalogs fails ("`q` (b/a)", docs/inputs.rst:113): the rendered axis ratio is
smaller than the column for every `q` strictly between 0 and 1. -/
theorem C126_ratio_refuted {q : ℝ} (h0 : 0 < q) (h1 : q < 1) (pa : ℝ) {r : ℝ} (hr : 0 < r) :
    √(along (skyCov q pa r) (pa + Real.pi / 2)) / √(along (skyCov q pa r) pa) < q := by
  obtain ⟨-, -, e, e', -⟩ := C126_extremes h0 h1.le pa r
  have hpos : 0 < along (skyCov q pa r) pa := by rw [e']; positivity
  rw [e, Real.sqrt_mul (by positivity), Real.sqrt_sq (by positivity), mul_div_assoc,
    div_self (Real.sqrt_pos.2 hpos).ne', mul_one]
  nlinarith

/-- C126, where the description of input catalogs fails ("`pa` (radians, E of N)", docs/inputs.rst:115): the direction
`pa` east of north is the long axis of the rendered source only for angles of ±45 degrees (mod 180). -/
theorem C126_angle_refuted {q : ℝ} (h0 : 0 < q) (h1 : q < 1) (pa : ℝ) {r : ℝ} (hr : 0 < r) :
    along (skyCov q pa r) (Real.pi / 2 - pa) = along (skyCov q pa r) pa ↔ Real.cos (2 * pa) = 0 := by
  rw [C126_axes, C126_axes]
  have e : Real.pi / 2 - pa - pa = Real.pi / 2 - 2 * pa := by ring
  rw [e, Real.cos_pi_div_two_sub, Real.sin_pi_div_two_sub, sub_self, Real.cos_zero, Real.sin_zero]
  have hs := Real.sin_sq_add_cos_sq (2 * pa)
  have hp : 0 < q ^ 2 := by positivity
  have hlt : q ^ 2 < 1 / q ^ 2 := by
    rw [lt_div_iff₀ hp]
    have : q ^ 2 < 1 := pow_lt_one₀ h0.le h1 two_ne_zero
    nlinarith
  have hs' : Real.sin (2 * pa) ^ 2 = 1 - Real.cos (2 * pa) ^ 2 := by linarith
  rw [hs']
  constructor
  · intro h
    have h := mul_left_cancel₀ (by positivity : r ^ 2 ≠ 0) h
    have hz : Real.cos (2 * pa) ^ 2 * (1 / q ^ 2 - q ^ 2) = 0 := by
      rw [sub_div] at h
      have : Real.cos (2 * pa) ^ 2 / q ^ 2 = Real.cos (2 * pa) ^ 2 * (1 / q ^ 2) := by ring
      rw [this] at h
      linarith
    rcases mul_eq_zero.1 hz with h | h
    · exact pow_eq_zero_iff two_ne_zero |>.1 h
    · linarith
  · intro h
    rw [h]
    simp

/-! ## Catalogs of another survey -/

/-- The columns of a table read by `rectify_jades` (semi-axes in pixels, angle in degrees east of north). -/
structure Jades where
  a : ℝ
  b : ℝ
  pa : ℝ
  ra : ℝ
  dec : ℝ
  ident : ℝ
  flux : String → ℝ

/-- The shape columns it writes (catalog.py:154-156). -/
noncomputable def jadesShape (pixscale : ℝ) (t : Jades) : ℝ × ℝ × ℝ :=
  let pa := Real.pi - t.pa * Real.pi / 180
  let sqrtq := √(t.a / t.b)
  let rhalf := t.a * sqrtq * pixscale
  (sqrtq, pa, rhalf)

/-- `rectify_jades` (catalog.py:151-169); `known` tells whether the name `sourcecat_dtype` is defined in the
module (none of its imports, catalog.py:3-5, defines it). -/
noncomputable def rectifyJades (known : Bool) (bands : List String) (pixscale : ℝ) (table : List Jades) :
    Except String (List (String → ℝ)) :=
  if known then
    .ok (table.map fun t => fun c =>
      if c ∈ bands then t.flux (c ++ "_CIRC2")
      else if c = "ra" then t.ra
      else if c = "dec" then t.dec
      else if c = "pa" then (jadesShape pixscale t).2.1
      else if c = "q" then (jadesShape pixscale t).1
      else if c = "rhalf" then (jadesShape pixscale t).2.2
      else if c = "id" then t.ident
      else 0)
  else .error "NameError: sourcecat_dtype"

/-- C126, the way the code fails: converting a table always raises. -/
theorem C126_jades_refuted (bands : List String) (pixscale : ℝ) (table : List Jades) :
    ∃ e, rectifyJades false bands pixscale table = .error e := ⟨_, rfl⟩

/-- C126, partial: with the name defined, rows, positions, identifiers and fluxes are those of the table, columns it does not set (the Sersic index) are zero, and the
ellipse drawn from the converted row is the one of the table — semi-axes in the ratio `b / a`, long axis `pa`
degrees east of north — although both the axis ratio and the angle are converted wrongly. -/
theorem C126_jades_partial (bands : List String) (pixscale : ℝ) (table : List Jades)
    (hbands : ∀ c ∈ bands, c ∉ ["ra", "dec", "pa", "q", "rhalf", "id"]) :
    ∃ rows, rectifyJades true bands pixscale table = .ok rows ∧ rows.length = table.length ∧
      ∀ (i : Nat) (t : Jades) (r : String → ℝ), table[i]? = some t → rows[i]? = some r →
        r "ra" = t.ra ∧ r "dec" = t.dec ∧ r "id" = t.ident ∧ (∀ c ∈ bands, r c = t.flux (c ++ "_CIRC2")) ∧
        (∀ c, c ∉ bands → c ∉ ["ra", "dec", "pa", "q", "rhalf", "id"] → r c = 0) ∧
        (0 < t.a → 0 < t.b → ∀ φ s, along (skyCov (r "q") (r "pa") s) φ =
          s ^ 2 * (t.a / t.b * Real.cos (φ - (Real.pi / 2 - t.pa * Real.pi / 180)) ^ 2 +
            t.b / t.a * Real.sin (φ - (Real.pi / 2 - t.pa * Real.pi / 180)) ^ 2)) := by
  refine ⟨_, rfl, by simp, ?_⟩
  intro i t r ht hr
  rw [List.getElem?_map, ht] at hr
  simp only [Option.map_some, Option.some.injEq] at hr
  subst hr
  have hn : ∀ c ∈ ["ra", "dec", "pa", "q", "rhalf", "id"], c ∉ bands := fun c hc hb => hbands c hb hc
  have n1 := hn "ra" (by simp)
  have n2 := hn "dec" (by simp)
  have n3 := hn "pa" (by simp)
  have n4 := hn "q" (by simp)
  have n5 := hn "id" (by simp)
  refine ⟨by simp [n1], by simp [n2], by simp [n5], fun c hc => by simp [hc], ?_, ?_⟩
  · intro c hc hc'
    simp only [List.mem_cons, List.not_mem_nil, or_false, not_or] at hc'
    simp [hc, hc'.1, hc'.2.1, hc'.2.2.1, hc'.2.2.2.1, hc'.2.2.2.2.1, hc'.2.2.2.2.2]
  intro ha hb φ s
  simp only [n3, n4, if_false, String.reduceEq, if_true, jadesShape]
  rw [C126_axes, Real.sq_sqrt (div_nonneg ha.le hb.le)]
  have e : φ - (Real.pi - t.pa * Real.pi / 180)
      = φ - (Real.pi / 2 - t.pa * Real.pi / 180) - Real.pi / 2 := by ring
  rw [e, Real.cos_sub_pi_div_two, Real.sin_sub_pi_div_two]
  field_simp
  ring

/-- C126, the way the code fails: for an elongated source the converted axis ratio is above one, so that
rectifying the catalog for a run (range 0.2 to 0.99) makes it almost round; and the radius is too large by the
axis ratio `a / b` compared with the circularised radius. -/
theorem C126_jades_shape_refuted (pixscale : ℝ) (t : Jades) (hb : 0 < t.b) (hab : t.b < t.a) :
    1 < (jadesShape pixscale t).1 ∧
    Forcepho.Bounds.clip (jadesShape pixscale t).1 (2 / 10) (99 / 100) = 99 / 100 ∧
    (jadesShape pixscale t).2.2 = t.a / t.b * (√(t.a * t.b) * pixscale) := by
  have ha : 0 < t.a := hb.trans hab
  have h1 : 1 < √(t.a / t.b) := by
    rw [Real.lt_sqrt (by norm_num), one_pow, one_lt_div hb]
    exact hab
  refine ⟨h1, ?_, ?_⟩
  · unfold Forcepho.Bounds.clip
    apply min_eq_right
    exact le_max_of_le_left (by simp only [jadesShape]; linarith)
  · simp only [jadesShape]
    have hs : √(t.a * t.b) = √(t.a / t.b) * t.b := by
      have : t.a * t.b = t.a / t.b * (t.b ^ 2) := by field_simp
      rw [this, Real.sqrt_mul (div_nonneg ha.le hb.le), Real.sqrt_sq hb.le]
    rw [hs]
    field_simp

/-! ## Region files -/

/-- An ellipse for a region file: centre, full width and height in arcsec, angle in degrees, colour, label. -/
structure Region where
  ra : ℝ
  dec : ℝ
  width : ℝ
  height : ℝ
  angle : ℝ
  color : Option String
  text : Option String

/-- A catalog row. -/
structure Src where
  ra : ℝ
  dec : ℝ
  q : ℝ
  pa : ℝ
  roi : ℝ
  rhalf : ℝ
  ident : String

/-- The loop body of `cat_to_regions` (ds9.py:30-42). -/
noncomputable def toRegion (ellipse : Bool) (row : Src) (roi : ℝ) : Region :=
  let sqrtq := if ellipse then row.q else 1
  let pa := if ellipse then 90 - row.pa * 180 / Real.pi else 0
  { ra := row.ra, dec := row.dec, width := roi / sqrtq, height := sqrtq * roi, angle := pa,
    color := none, text := none }

/-- `annotate_regions` (ds9.py:51-61): an identifier or colour missing from its list is an `IndexError`. -/
def annotate (regs : List Region) (ids colors : Option (List String)) : Except String (List Region) :=
  let cols := colors.getD (List.replicate regs.length "green")
  regs.zipIdx.mapM fun p =>
    match cols[p.2]?, ids.map (fun l => l[p.2]?) with
    | some col, none => .ok { p.1 with color := some col }
    | some col, some (some t) => .ok { p.1 with color := some col, text := some t }
    | _, _ => .error "IndexError"

/-- `cat_to_regions` (ds9.py:17-48): radii from the argument or from the column `roi`. -/
noncomputable def catToRegions (cat : List Src) (roi : Option (List ℝ)) (ellipse showid : Bool) :
    Except String (List Region) :=
  let radii := roi.getD (cat.map Src.roi)
  match cat.zipIdx.mapM (fun p => match radii[p.2]? with
      | some x => (Except.ok (toRegion ellipse p.1 x) : Except String Region)
      | none => .error "IndexError") with
  | .error e => .error e
  | .ok regs => if showid then annotate regs (some (cat.map Src.ident)) none else .ok regs

lemma mapM_ok_of {α β : Type} {f : α → Except String β} {g : α → β} :
    ∀ {xs : List α}, (∀ x ∈ xs, f x = .ok (g x)) → xs.mapM f = .ok (xs.map g)
  | [], _ => rfl
  | x :: xs, h => by
    rw [List.mapM_cons, h x (by simp), mapM_ok_of (fun y hy => h y (by simp [hy]))]
    rfl

lemma mapM_error_of {α β : Type} {f : α → Except String β} :
    ∀ {xs : List α}, (∃ x ∈ xs, ∃ e, f x = .error e) → ∃ e, xs.mapM f = .error e
  | [], h => by simp at h
  | x :: xs, h => by
    rw [List.mapM_cons]
    cases hx : f x with
    | error e => exact ⟨e, rfl⟩
    | ok y =>
      have : ∃ x ∈ xs, ∃ e, f x = .error e := by
        obtain ⟨z, hz, e, he⟩ := h
        rcases List.mem_cons.1 hz with rfl | hz
        · rw [hx] at he; cases he
        · exact ⟨z, hz, e, he⟩
      obtain ⟨e, he⟩ := mapM_error_of this
      rw [he]
      exact ⟨e, rfl⟩

/-- C126, region files: one region per source, in order, at the position of the source, with axes in the ratio `q`
squared (or equal, when asked for circles) and the given radius as their geometric mean; labelled with the
identifiers and green, when asked; an error exactly when fewer radii than sources are given. -/
theorem C126_regions (cat : List Src) (roi : Option (List ℝ)) (ellipse showid : Bool) :
    ((∃ e, catToRegions cat roi ellipse showid = .error e) ↔ ∃ l, roi = some l ∧ l.length < cat.length) ∧
    ∀ regs, catToRegions cat roi ellipse showid = .ok regs → regs.length = cat.length ∧
      ∀ (i : Nat) (s : Src) (g : Region), cat[i]? = some s → regs[i]? = some g →
        ∃ x, (roi = none → x = s.roi) ∧ (∀ l, roi = some l → l[i]? = some x) ∧
          g.ra = s.ra ∧ g.dec = s.dec ∧
          (ellipse = false → g.width = x ∧ g.height = x ∧ g.angle = 0) ∧
          (ellipse = true → g.angle = 90 - s.pa * 180 / Real.pi ∧
            (s.q ≠ 0 → g.width * g.height = x ^ 2 ∧ g.height = s.q ^ 2 * g.width)) ∧
          (showid = true → g.text = some s.ident ∧ g.color = some "green") ∧
          (showid = false → g.text = none ∧ g.color = none) := by
  have hshort : (∃ l, roi = some l ∧ l.length < cat.length) →
      ∃ e, catToRegions cat roi ellipse showid = .error e := by
    rintro ⟨l, rfl, hl⟩
    unfold catToRegions
    obtain ⟨e, he⟩ : ∃ e, cat.zipIdx.mapM (fun p => match ((some l).getD (cat.map Src.roi))[p.2]? with
      | some x => (Except.ok (toRegion ellipse p.1 x) : Except String Region)
      | none => .error "IndexError") = .error e := by
      apply mapM_error_of
      refine ⟨(cat[l.length], l.length), ?_, "IndexError", ?_⟩
      · rw [List.mem_zipIdx_iff_getElem?]
        exact List.getElem?_eq_getElem hl
      · simp
    simp only [he]
    exact ⟨e, rfl⟩
  by_cases hl : ∃ l, roi = some l ∧ l.length < cat.length
  · obtain ⟨e, he⟩ := hshort hl
    refine ⟨⟨fun _ => hl, fun _ => ⟨e, he⟩⟩, ?_⟩
    intro regs hr
    rw [he] at hr
    cases hr
  · have hlen : cat.length ≤ (roi.getD (cat.map Src.roi)).length := by
      cases roi with
      | none => simp
      | some l => exact not_lt.1 fun h => hl ⟨l, rfl, h⟩
    have h1 : cat.zipIdx.mapM (fun p => match (roi.getD (cat.map Src.roi))[p.2]? with
      | some x => (Except.ok (toRegion ellipse p.1 x) : Except String Region)
      | none => .error "IndexError") =
      .ok (cat.zipIdx.map fun p => toRegion ellipse p.1 ((roi.getD (cat.map Src.roi))[p.2]?.getD 0)) := by
      apply mapM_ok_of
      rintro ⟨s, i⟩ hp
      rw [List.mem_zipIdx_iff_getElem?] at hp
      have hi : i < (roi.getD (cat.map Src.roi)).length := lt_of_lt_of_le (List.getElem?_eq_some_iff.1 hp).1 hlen
      simp only [List.getElem?_eq_getElem hi, Option.getD_some]
    set regs0 := cat.zipIdx.map fun p => toRegion ellipse p.1 ((roi.getD (cat.map Src.roi))[p.2]?.getD 0)
      with hregs0
    have hl0 : regs0.length = cat.length := by simp [hregs0]
    have h2 : annotate regs0 (some (cat.map Src.ident)) none = .ok (regs0.zipIdx.map fun p =>
        { p.1 with color := some "green", text := (cat.map Src.ident)[p.2]? }) := by
      unfold annotate
      apply mapM_ok_of
      rintro ⟨g, i⟩ hp
      rw [List.mem_zipIdx_iff_getElem?] at hp
      have hi : i < regs0.length := (List.getElem?_eq_some_iff.1 hp).1
      have hi' : i < (cat.map Src.ident).length := by simpa [hl0] using hi
      simp only [Option.getD_none, List.getElem?_replicate, hi, if_true, Option.map_some,
        List.getElem?_eq_getElem hi']
    have hok : catToRegions cat roi ellipse showid = .ok (if showid then (regs0.zipIdx.map fun p =>
        { p.1 with color := some "green", text := (cat.map Src.ident)[p.2]? }) else regs0) := by
      unfold catToRegions
      simp only [h1]
      cases showid
      · rfl
      · simpa using h2
    refine ⟨⟨?_, fun h => absurd h hl⟩, ?_⟩
    · rintro ⟨e, he⟩
      rw [hok] at he
      cases he
    · intro regs hr
      rw [hok] at hr
      cases hr
      constructor
      · cases showid <;> simp [hl0]
      · intro i s g hs hg
        have hi : i < (roi.getD (cat.map Src.roi)).length :=
          lt_of_lt_of_le (List.getElem?_eq_some_iff.1 hs).1 hlen
        have hg0 : regs0[i]? = some (toRegion ellipse s ((roi.getD (cat.map Src.roi))[i])) := by
          rw [hregs0, List.getElem?_map, List.getElem?_zipIdx, hs]
          simp [List.getElem?_eq_getElem hi]
        refine ⟨(roi.getD (cat.map Src.roi))[i], ?_, ?_, ?_⟩
        · intro h
          subst h
          simp only [Option.getD_none, List.getElem_map]
          rw [List.getElem_of_getElem? hs |>.2]
        · intro l h
          subst h
          exact List.getElem?_eq_getElem hi
        · have base : ∀ g' : Region, g'.ra = s.ra → g'.dec = s.dec →
              g'.width = (toRegion ellipse s ((roi.getD (cat.map Src.roi))[i])).width →
              g'.height = (toRegion ellipse s ((roi.getD (cat.map Src.roi))[i])).height →
              g'.angle = (toRegion ellipse s ((roi.getD (cat.map Src.roi))[i])).angle →
              (ellipse = false → g'.width = (roi.getD (cat.map Src.roi))[i] ∧
                g'.height = (roi.getD (cat.map Src.roi))[i] ∧ g'.angle = 0) ∧
              (ellipse = true → g'.angle = 90 - s.pa * 180 / Real.pi ∧
                (s.q ≠ 0 → g'.width * g'.height = (roi.getD (cat.map Src.roi))[i] ^ 2 ∧
                  g'.height = s.q ^ 2 * g'.width)) := by
            intro g' _ _ e1 e2 e3
            rw [e1, e2, e3]
            constructor
            · rintro rfl
              simp [toRegion]
            · rintro rfl
              simp only [toRegion, if_true, true_and]
              intro hq
              constructor
              · field_simp
              · field_simp
          cases showid
          · simp only [Bool.false_eq_true, if_false] at hg
            rw [hg0] at hg
            cases hg
            obtain ⟨b1, b2⟩ := base _ rfl rfl rfl rfl rfl
            exact ⟨rfl, rfl, b1, b2, by simp, by simp [toRegion]⟩
          · simp only [if_true] at hg
            rw [List.getElem?_map, List.getElem?_zipIdx, hg0] at hg
            simp only [Option.map_some, Option.some.injEq, Nat.zero_add] at hg
            subst hg
            have hid : (cat.map Src.ident)[i]? = some s.ident := by rw [List.getElem?_map, hs]; rfl
            obtain ⟨b1, b2⟩ := base { (toRegion ellipse s ((roi.getD (cat.map Src.roi))[i])) with
              color := some "green", text := (cat.map Src.ident)[i]? } rfl rfl rfl rfl rfl
            exact ⟨rfl, rfl, b1, b2, fun _ => ⟨hid, rfl⟩, by simp⟩

/-- Two readings of the angle of an ellipse in a region file: as the direction of its width, in degrees east of
north, or in degrees counter-clockwise from the longitude axis on an image with north up and east left. -/
inductive Reading
  | eastOfNorth
  | fromLongitude

/-- The direction of the width axis (east, north). -/
noncomputable def Reading.axis (k : Reading) (deg : ℝ) : ℝ × ℝ :=
  match k with
  | .eastOfNorth => (Real.sin (deg * Real.pi / 180), Real.cos (deg * Real.pi / 180))
  | .fromLongitude => (-Real.cos (deg * Real.pi / 180), Real.sin (deg * Real.pi / 180))

/-- The points (east, north) of the ellipse. -/
def Region.inside (k : Reading) (g : Region) (v : ℝ × ℝ) : Prop :=
  let u := k.axis g.angle
  ((v.1 * u.1 + v.2 * u.2) / (g.width / 2)) ^ 2 + ((v.1 * u.2 - v.2 * u.1) / (g.height / 2)) ^ 2 ≤ 1

/-- The points of a source's own ellipse with geometric mean radius `ρ`: the disk of radius `ρ`, scaled by `S` and
turned by `R`, as sources are when rendered. -/
noncomputable def sourceInside (s : Src) (ρ : ℝ) (v : ℝ × ℝ) : Prop :=
  ∃ x y : ℝ, x ^ 2 + y ^ 2 ≤ ρ ^ 2 ∧
    v = ((rotationMatrix s.pa).v11 * ((scaleMatrix s.q).v11 * x) + (rotationMatrix s.pa).v12 * ((scaleMatrix s.q).v22 * y),
      (rotationMatrix s.pa).v21 * ((scaleMatrix s.q).v11 * x) + (rotationMatrix s.pa).v22 * ((scaleMatrix s.q).v22 * y))

lemma sourceInside_iff {s : Src} (hq : 0 < s.q) (ρ : ℝ) (v : ℝ × ℝ) :
    sourceInside s ρ v ↔
      (s.q * (v.1 * Real.cos s.pa + v.2 * Real.sin s.pa)) ^ 2 +
        ((v.2 * Real.cos s.pa - v.1 * Real.sin s.pa) / s.q) ^ 2 ≤ ρ ^ 2 := by
  have hsc := Real.sin_sq_add_cos_sq s.pa
  have hq' := hq.ne'
  obtain ⟨v1, v2⟩ := v
  constructor
  · rintro ⟨x, y, hxy, hv⟩
    simp only [rotationMatrix, scaleMatrix, Prod.mk.injEq] at hv
    obtain ⟨rfl, rfl⟩ := hv
    have e1 : s.q * ((Real.cos s.pa * (1 / s.q * x) + -Real.sin s.pa * (s.q * y)) * Real.cos s.pa +
        (Real.sin s.pa * (1 / s.q * x) + Real.cos s.pa * (s.q * y)) * Real.sin s.pa) = x := by
      have : s.q * ((Real.cos s.pa * (1 / s.q * x) + -Real.sin s.pa * (s.q * y)) * Real.cos s.pa +
        (Real.sin s.pa * (1 / s.q * x) + Real.cos s.pa * (s.q * y)) * Real.sin s.pa)
        = (s.q * (1 / s.q)) * x * (Real.sin s.pa ^ 2 + Real.cos s.pa ^ 2) := by ring
      rw [this, hsc, mul_one_div_cancel hq']
      ring
    have e2 : ((Real.sin s.pa * (1 / s.q * x) + Real.cos s.pa * (s.q * y)) * Real.cos s.pa -
        (Real.cos s.pa * (1 / s.q * x) + -Real.sin s.pa * (s.q * y)) * Real.sin s.pa) / s.q = y := by
      have : (Real.sin s.pa * (1 / s.q * x) + Real.cos s.pa * (s.q * y)) * Real.cos s.pa -
        (Real.cos s.pa * (1 / s.q * x) + -Real.sin s.pa * (s.q * y)) * Real.sin s.pa
        = (s.q * y) * (Real.sin s.pa ^ 2 + Real.cos s.pa ^ 2) := by ring
      rw [this, hsc, mul_one, mul_div_cancel_left₀ _ hq']
    simp only [e1, e2]
    exact hxy
  · intro h
    refine ⟨_, _, h, ?_⟩
    simp only [rotationMatrix, scaleMatrix, Prod.mk.injEq]
    constructor
    · have : Real.cos s.pa * (1 / s.q * (s.q * (v1 * Real.cos s.pa + v2 * Real.sin s.pa))) +
          -Real.sin s.pa * (s.q * ((v2 * Real.cos s.pa - v1 * Real.sin s.pa) / s.q))
          = v1 * (Real.sin s.pa ^ 2 + Real.cos s.pa ^ 2) := by
        field_simp
        ring
      rw [this, hsc, mul_one]
    · have : Real.sin s.pa * (1 / s.q * (s.q * (v1 * Real.cos s.pa + v2 * Real.sin s.pa))) +
          Real.cos s.pa * (s.q * ((v2 * Real.cos s.pa - v1 * Real.sin s.pa) / s.q))
          = v2 * (Real.sin s.pa ^ 2 + Real.cos s.pa ^ 2) := by
        field_simp
        ring
      rw [this, hsc, mul_one]

lemma deg_cancel (pa : ℝ) : (90 - pa * 180 / Real.pi) * Real.pi / 180 = Real.pi / 2 - pa := by
  have := Real.pi_ne_zero
  field_simp
  ring

/-- C126, partial: read as an angle east of north, the region drawn for a source is the source's own ellipse — with
half of the requested radius, since the axes of a region are full lengths. -/
theorem C126_drawn_partial {s : Src} (hq : 0 < s.q) {x : ℝ} (hx : 0 < x) (v : ℝ × ℝ) :
    (toRegion true s x).inside .eastOfNorth v ↔ sourceInside s (x / 2) v := by
  rw [sourceInside_iff hq]
  obtain ⟨v1, v2⟩ := v
  simp only [Region.inside, Reading.axis, toRegion, if_true, deg_cancel, Real.sin_pi_div_two_sub,
    Real.cos_pi_div_two_sub]
  have hq' := hq.ne'
  have hx' := hx.ne'
  have e : ((v1 * Real.cos s.pa + v2 * Real.sin s.pa) / (x / s.q / 2)) ^ 2 +
      ((v1 * Real.sin s.pa - v2 * Real.cos s.pa) / (s.q * x / 2)) ^ 2
      = ((s.q * (v1 * Real.cos s.pa + v2 * Real.sin s.pa)) ^ 2 +
        ((v2 * Real.cos s.pa - v1 * Real.sin s.pa) / s.q) ^ 2) / (x / 2) ^ 2 := by
    field_simp
    ring
  rw [e, div_le_one (by positivity)]

/-- C126, the way the code fails: read as an angle from the longitude axis, the region drawn is turned by a right
angle: for an elongated source whose long axis is east-west it is not the source's ellipse, for any radius. -/
theorem C126_drawn_refuted {s : Src} (hq : 0 < s.q) (hq1 : s.q < 1) (hpa : s.pa = 0) {x : ℝ} (hx : 0 < x) :
    ¬ ∃ ρ : ℝ, ∀ v, (toRegion true s x).inside .fromLongitude v ↔ sourceInside s ρ v := by
  rintro ⟨ρ, h⟩
  have hq' := hq.ne'
  have hx' := hx.ne'
  have hin : ∀ v1 v2 : ℝ, (toRegion true s x).inside .fromLongitude (v1, v2) ↔
      (v2 / (x / s.q / 2)) ^ 2 + (v1 / (s.q * x / 2)) ^ 2 ≤ 1 := by
    intro v1 v2
    simp only [Region.inside, Reading.axis, toRegion, if_true, deg_cancel, Real.sin_pi_div_two_sub,
      Real.cos_pi_div_two_sub, hpa, Real.sin_zero, Real.cos_zero]
    simp
  have hsrc : ∀ v1 v2 : ℝ, sourceInside s ρ (v1, v2) ↔ (s.q * v1) ^ 2 + (v2 / s.q) ^ 2 ≤ ρ ^ 2 := by
    intro v1 v2
    rw [sourceInside_iff hq, hpa]
    simp
  -- the northernmost point of the region
  have a1 := (hsrc 0 (x / s.q / 2)).1 ((h _).1 ((hin 0 (x / s.q / 2)).2 (by
    have : x / s.q / 2 ≠ 0 := by positivity
    rw [div_self this]; simp)))
  -- a point east of the region
  have hne : s.q * x / 2 ≠ 0 := by positivity
  have hd : (x / (2 * s.q) / (s.q * x / 2)) = 1 / s.q ^ 2 := by field_simp
  have hgt : 1 < 1 / s.q ^ 2 := by
    rw [one_lt_div (by positivity)]
    exact pow_lt_one₀ hq.le hq1 two_ne_zero
  have a2 : ¬ (toRegion true s x).inside .fromLongitude (x / (2 * s.q), 0) := by
    rw [hin, hd]
    simp only [zero_div]
    nlinarith
  have a3 := mt (h _).2 a2
  rw [hsrc, not_le] at a3
  have e3 : s.q * (x / (2 * s.q)) = x / 2 := by field_simp
  have e1 : x / s.q / 2 / s.q = x / 2 * (1 / s.q ^ 2) := by field_simp
  rw [e3] at a3
  rw [e1] at a1
  have hxx : 0 < (x / 2) ^ 2 := by positivity
  have : (x / 2 * (1 / s.q ^ 2)) ^ 2 = (x / 2) ^ 2 * (1 / s.q ^ 2) ^ 2 := by ring
  rw [this] at a1
  have h1 : 1 < (1 / s.q ^ 2) ^ 2 := by nlinarith
  have h2 := mul_lt_mul_of_pos_left h1 hxx
  rw [mul_zero, zero_pow two_ne_zero] at a1
  rw [zero_div, zero_pow two_ne_zero] at a3
  linarith

/-! ## `write_sourcereg` -/

/-- The radii of the regions (postprocess.py:414-419): isophotal radii, where they exist (`none` is NaN), else the
half-light radii. -/
def regionRadii (iso : Option (List (Option ℝ))) (cat : List Src) : List ℝ :=
  match iso with
  | none => cat.map Src.rhalf
  | some l => (cat.zip l).map fun p => p.2.getD p.1.rhalf

/-- `write_sourcereg` (postprocess.py:400-423): the file written and its regions.  `known` tells whether the
name `cat_to_reg` is defined in the module (none of its imports, postprocess.py:4-19, defines it; the function is
called `cat_to_regions`). -/
noncomputable def writeSourcereg (known : Bool) (_root slist : String) (cat : List Src)
    (iso : Option (List (Option ℝ))) : Except String (String × List Region) :=
  if known then (catToRegions cat (some (regionRadii iso cat)) true true).map fun r => (slist, r)
  else .error "NameError: cat_to_reg"

/-- C126, the way the code fails: no region file is ever written. -/
theorem C126_sourcereg_refuted (root slist : String) (cat : List Src) (iso : Option (List (Option ℝ))) :
    ∃ e, writeSourcereg false root slist cat iso = .error e := ⟨_, rfl⟩

/-- C126, partial: with the name defined there is a region for each source, labelled, with the isophotal radius of
the source where it has one and else its half-light radius as geometric mean of the axes; but the file is
`slist` in the current directory, whatever the directory of the run. -/
theorem C126_sourcereg_partial (root slist : String) (cat : List Src) (iso : Option (List (Option ℝ)))
    (hiso : ∀ l, iso = some l → l.length = cat.length) :
    ∃ regs, writeSourcereg true root slist cat iso = .ok (slist, regs) ∧ regs.length = cat.length ∧
      ∀ (i : Nat) (s : Src) (g : Region), cat[i]? = some s → regs[i]? = some g →
        g.text = some s.ident ∧ g.ra = s.ra ∧ g.dec = s.dec ∧
        (s.q ≠ 0 → (iso = none → g.width * g.height = s.rhalf ^ 2) ∧
          (∀ (l : List (Option ℝ)) (x : ℝ), iso = some l → l[i]? = some (some x) → g.width * g.height = x ^ 2) ∧
          (∀ l : List (Option ℝ), iso = some l → l[i]? = some none → g.width * g.height = s.rhalf ^ 2)) := by
  have hlen : (regionRadii iso cat).length = cat.length := by
    cases iso with
    | none => simp [regionRadii]
    | some l => simp [regionRadii, hiso l rfl]
  obtain ⟨h1, h2⟩ := C126_regions cat (some (regionRadii iso cat)) true true
  cases hc : catToRegions cat (some (regionRadii iso cat)) true true with
  | error e =>
    obtain ⟨l, hl, hlt⟩ := h1.1 ⟨e, hc⟩
    cases hl
    omega
  | ok regs =>
    obtain ⟨h3, h4⟩ := h2 regs hc
    refine ⟨regs, by simp [writeSourcereg, hc, Except.map], h3, ?_⟩
    intro i s g hs hg
    obtain ⟨x, -, hx, e1, e2, -, e3, e4, -⟩ := h4 i s g hs hg
    have hx := hx _ rfl
    refine ⟨(e4 rfl).1, e1, e2, ?_⟩
    intro hq
    have hwh := ((e3 rfl).2 hq).1
    refine ⟨?_, ?_, ?_⟩
    · intro hi
      subst hi
      rw [regionRadii, List.getElem?_map, hs] at hx
      simp only [Option.map_some, Option.some.injEq] at hx
      rw [hwh, hx]
    · intro l y hi hy
      subst hi
      have hz : (cat.zip l)[i]? = some (s, some y) := by
        rw [List.getElem?_zip_eq_some]; exact ⟨hs, hy⟩
      rw [regionRadii, List.getElem?_map, hz] at hx
      simp only [Option.map_some, Option.some.injEq, Option.getD_some] at hx
      rw [hwh, hx]
    · intro l hi hy
      subst hi
      have hz : (cat.zip l)[i]? = some (s, none) := by
        rw [List.getElem?_zip_eq_some]; exact ⟨hs, hy⟩
      rw [regionRadii, List.getElem?_map, hz] at hx
      simp only [Option.map_some, Option.some.injEq, Option.getD_none] at hx
      rw [hwh, hx]

/-- A source with axes 4 to 1 pointing east. -/
noncomputable def exSrc : Src := ⟨53, -27, 1 / 2, 0, 1, 1 / 5, "a"⟩

/-- The hypotheses can be met. -/
example : ¬ ∃ ρ : ℝ, ∀ v, (toRegion true exSrc 1).inside .fromLongitude v ↔ sourceInside exSrc ρ v :=
  C126_drawn_refuted (by norm_num [exSrc]) (by norm_num [exSrc]) rfl (by norm_num)

example : along (skyCov (1 / 2) 0 1) 0 = 4 ∧ along (skyCov (1 / 2) 0 1) (Real.pi / 2) = 1 / 4 := by
  rw [C126_axes, C126_axes]
  norm_num

example : ∃ regs, writeSourcereg true "run" "sources.reg" [exSrc, exSrc] (some [none, some 3]) =
    .ok ("sources.reg", regs) ∧ regs.length = 2 := by
  obtain ⟨regs, h1, h2, -⟩ := C126_sourcereg_partial "run" "sources.reg" [exSrc, exSrc] (some [none, some 3])
    (by intro l hl; cases hl; rfl)
  exact ⟨regs, h1, h2⟩

end Forcepho.Shapes

import Verif.Wcs.Model
import Verif.Patch.Meta
import Mathlib.Analysis.Calculus.Deriv.Slope
import Mathlib.Analysis.Calculus.Deriv.Inv
import Verif.Transform.Props

/-! # C57, C58: local astrometry -/

set_option autoImplicit false
set_option linter.unusedSectionVars false

namespace Forcepho.Wcs

open Kernel (M22)
open Region (deg2rad)

/-! ## C57 -/

lemma solve_some {a b : M22} (h : a.det ≠ 0) : linalgSolve a b = some (a.inv.mul b) := by
  unfold linalgSolve; rw [if_neg h]

lemma inv_some {a : M22} (h : a.det ≠ 0) : linalgInv a = some a.inv := by
  unfold linalgInv; rw [if_neg h]

/-- C57 (secants). For any map, the numerical matrix takes the sky displacement of a step along
either pixel axis to exactly that step. -/
theorem C57_secant (w : WcsObj) (sky : ℝ × ℝ) (dpix : ℝ) (approx : Bool) (cw d : M22)
    (hb : (w.hasDistortion || approx) = true) (h : scaleAtSky w sky dpix approx = some (cw, d)) :
    let p0 := w.toPix sky
    let s1 := w.toSky (p0.1 + dpix, p0.2)
    let s2 := w.toSky (p0.1, p0.2 + dpix)
    cw.mulVec (s1.1 - sky.1, s1.2 - sky.2) = (dpix, 0) ∧ cw.mulVec (s2.1 - sky.1, s2.2 - sky.2) = (0, dpix) := by
  unfold scaleAtSky at h
  rw [if_pos hb] at h
  obtain ⟨x, hx, heq⟩ := Option.map_eq_some_iff.mp h
  obtain ⟨rfl, -⟩ := Prod.mk.inj heq
  unfold linalgSolve at hx
  split at hx
  · cases hx
  · rename_i hdet
    obtain rfl := Option.some.inj hx
    simp only [skySteps, M22.det] at hdet
    simp only [skySteps, M22.inv, M22.det, M22.mul, M22.tr, M22.mulVec, Prod.mk.injEq]
    generalize (w.toSky ((w.toPix sky).1 + dpix, (w.toPix sky).2)).1 - sky.1 = a at *
    generalize (w.toSky ((w.toPix sky).1 + dpix, (w.toPix sky).2)).2 - sky.2 = b at *
    generalize (w.toSky ((w.toPix sky).1, (w.toPix sky).2 + dpix)).1 - sky.1 = c at *
    generalize (w.toSky ((w.toPix sky).1, (w.toPix sky).2 + dpix)).2 - sky.2 = e at *
    obtain ⟨D, hD⟩ : ∃ D, D = a * e - b * c := ⟨_, rfl⟩
    rw [← hD] at hdet ⊢
    change D ≠ 0 at hdet
    refine ⟨⟨?_, ?_⟩, ?_, ?_⟩
    · field_simp; rw [hD]; ring
    · field_simp; ring
    · field_simp; ring
    · field_simp; rw [hD]; ring

/-- C57 (affine maps). If the pixel to sky map is affine and invertible, and the sky to pixel map is
its inverse at the position, then for every non-zero step the numerical matrix exists and maps every
sky displacement exactly to the pixel displacement. -/
theorem C57_affine (w : WcsObj) (sky : ℝ × ℝ) (dpix : ℝ) (approx : Bool) (hd : dpix ≠ 0)
    (hb : (w.hasDistortion || approx) = true) (A : M22) (hA : A.det ≠ 0) (o : ℝ × ℝ)
    (haff : ∀ p, w.toSky p = ((A.mulVec p).1 + o.1, (A.mulVec p).2 + o.2))
    (hinv : w.toSky (w.toPix sky) = sky) :
    ∃ cw d, scaleAtSky w sky dpix approx = some (cw, d) ∧
      ∀ p, cw.mulVec ((w.toSky p).1 - sky.1, (w.toSky p).2 - sky.2) =
        (p.1 - (w.toPix sky).1, p.2 - (w.toPix sky).2) := by
  obtain ⟨p0, hp0⟩ : ∃ p0, p0 = w.toPix sky := ⟨_, rfl⟩
  have hs : skySteps w sky dpix = M22.smul dpix A.tr := by
    rw [← hp0] at hinv
    have h1 : (A.mulVec p0).1 + o.1 = sky.1 := by rw [← hinv, haff]
    have h2 : (A.mulVec p0).2 + o.2 = sky.2 := by
      have := congrArg Prod.snd hinv; rw [haff] at this; exact this
    unfold skySteps
    rw [← hp0]
    simp only [haff, M22.mulVec, M22.smul, M22.tr] at h1 h2 ⊢
    rw [← h1, ← h2]
    ext <;> simp only <;> ring
  have hdet : (M22.smul dpix A.tr).det ≠ 0 := by
    have : (M22.smul dpix A.tr).det = dpix ^ 2 * A.det := by
      simp only [M22.det, M22.smul, M22.tr]; ring
    rw [this]; exact mul_ne_zero (pow_ne_zero _ hd) hA
  unfold scaleAtSky
  rw [if_pos hb, hs, solve_some hdet]
  refine ⟨_, _, rfl, ?_⟩
  intro p
  rw [← hp0] at hinv ⊢
  have h1 : (A.mulVec p0).1 + o.1 = sky.1 := by rw [← hinv, haff]
  have h2 : (A.mulVec p0).2 + o.2 = sky.2 := by
    have := congrArg Prod.snd hinv; rw [haff] at this; exact this
  rw [haff, ← h1, ← h2]
  unfold M22.det at hA
  simp only [M22.mulVec, M22.inv, M22.mul, M22.tr, M22.smul, M22.det]
  obtain ⟨D, hD⟩ : ∃ D, D = A.v11 * A.v22 - A.v12 * A.v21 := ⟨_, rfl⟩
  rw [show dpix * A.v11 * (dpix * A.v22) - dpix * A.v21 * (dpix * A.v12) = dpix ^ 2 * D by rw [hD]; ring]
  rw [← hD] at hA
  apply Prod.ext
  · simp only; field_simp; rw [hD]; ring
  · simp only; field_simp; rw [hD]; ring

/-- A WCS with a stretched and shifted grid, to which `C57_affine` applies. -/
example : ∃ (w : WcsObj) (A : M22) (o : ℝ × ℝ), w.hasDistortion = true ∧ A.det ≠ 0 ∧
    (∀ p, w.toSky p = ((A.mulVec p).1 + o.1, (A.mulVec p).2 + o.2)) ∧ ∀ sky, w.toSky (w.toPix sky) = sky := by
  refine ⟨⟨true, fun s => ((s.1 - 5) / 2, s.2 - 7), fun p => (2 * p.1 + 5, p.2 + 7), ⟨2, 0, 0, 1⟩⟩, ⟨2, 0, 0, 1⟩,
    (5, 7), rfl, by norm_num [M22.det], ?_, ?_⟩
  · intro p; simp [M22.mulVec]
  · intro s; apply Prod.ext
    · simp only; ring
    · simp only; ring

/-- C57 (curved maps). If the pixel to sky map is differentiable along both axes at the position's
pixel, with invertible matrix of derivatives, then as the step goes to zero the numerical matrix
exists and tends to the inverse of that matrix. -/
theorem C57_limit (w : WcsObj) (sky : ℝ × ℝ) (approx : Bool)
    (hb : (w.hasDistortion || approx) = true) (A : M22) (hA : A.det ≠ 0)
    (hinv : w.toSky (w.toPix sky) = sky)
    (hx1 : HasDerivAt (fun t => (w.toSky ((w.toPix sky).1 + t, (w.toPix sky).2)).1) A.v11 0)
    (hx2 : HasDerivAt (fun t => (w.toSky ((w.toPix sky).1 + t, (w.toPix sky).2)).2) A.v21 0)
    (hy1 : HasDerivAt (fun t => (w.toSky ((w.toPix sky).1, (w.toPix sky).2 + t)).1) A.v12 0)
    (hy2 : HasDerivAt (fun t => (w.toSky ((w.toPix sky).1, (w.toPix sky).2 + t)).2) A.v22 0) :
    ∃ cw d : ℝ → M22,
      (∀ᶠ t in nhdsWithin 0 {0}ᶜ, scaleAtSky w sky t approx = some (cw t, d t)) ∧
      Filter.Tendsto (fun t => (cw t).v11) (nhdsWithin 0 {0}ᶜ) (nhds A.inv.v11) ∧
      Filter.Tendsto (fun t => (cw t).v12) (nhdsWithin 0 {0}ᶜ) (nhds A.inv.v12) ∧
      Filter.Tendsto (fun t => (cw t).v21) (nhdsWithin 0 {0}ᶜ) (nhds A.inv.v21) ∧
      Filter.Tendsto (fun t => (cw t).v22) (nhdsWithin 0 {0}ᶜ) (nhds A.inv.v22) := by
  obtain ⟨p0, hp0⟩ : ∃ p0, p0 = w.toPix sky := ⟨_, rfl⟩
  rw [← hp0] at hinv hx1 hx2 hy1 hy2
  -- difference quotients
  rw [hasDerivAt_iff_tendsto_slope_zero] at hx1 hx2 hy1 hy2
  simp only [zero_add, add_zero, smul_eq_mul] at hx1 hx2 hy1 hy2
  rw [Prod.mk.eta, hinv] at hx1 hx2 hy1 hy2
  obtain ⟨q, hq⟩ : ∃ q : ℝ → M22, q = fun t =>
      ⟨t⁻¹ * ((w.toSky (p0.1 + t, p0.2)).1 - sky.1), t⁻¹ * ((w.toSky (p0.1, p0.2 + t)).1 - sky.1),
       t⁻¹ * ((w.toSky (p0.1 + t, p0.2)).2 - sky.2), t⁻¹ * ((w.toSky (p0.1, p0.2 + t)).2 - sky.2)⟩ :=
    ⟨_, rfl⟩
  have t11 : Filter.Tendsto (fun t => (q t).v11) (nhdsWithin 0 {0}ᶜ) (nhds A.v11) := by rw [hq]; exact hx1
  have t21 : Filter.Tendsto (fun t => (q t).v21) (nhdsWithin 0 {0}ᶜ) (nhds A.v21) := by rw [hq]; exact hx2
  have t12 : Filter.Tendsto (fun t => (q t).v12) (nhdsWithin 0 {0}ᶜ) (nhds A.v12) := by rw [hq]; exact hy1
  have t22 : Filter.Tendsto (fun t => (q t).v22) (nhdsWithin 0 {0}ᶜ) (nhds A.v22) := by rw [hq]; exact hy2
  have tdet : Filter.Tendsto (fun t => (q t).det) (nhdsWithin 0 {0}ᶜ) (nhds A.det) :=
    (t11.mul t22).sub (t12.mul t21)
  have tid : Filter.Tendsto (fun t => 1 / (q t).det) (nhdsWithin 0 {0}ᶜ) (nhds (1 / A.det)) :=
    tendsto_const_nhds.div tdet hA
  have hsteps : ∀ t, t ≠ 0 → skySteps w sky t = M22.smul t (q t).tr := by
    intro t ht
    unfold skySteps
    rw [← hp0, hq]
    ext <;> simp only [M22.smul, M22.tr] <;> field_simp
  refine ⟨fun t => (q t).inv, fun t => M22.smul (1 / 3600)
    ((q t).inv.mul (diagOne (Real.cos (deg2rad sky.2))⁻¹)), ?_, ?_, ?_, ?_, ?_⟩
  · have e1 : ∀ᶠ t in nhdsWithin (0 : ℝ) {0}ᶜ, (q t).det ≠ 0 := tdet.eventually_ne hA
    have e2 : ∀ᶠ t in nhdsWithin (0 : ℝ) {0}ᶜ, t ≠ 0 := self_mem_nhdsWithin
    filter_upwards [e1, e2] with t h1 h2
    have hdet : (M22.smul t (q t).tr).det ≠ 0 := by
      have : (M22.smul t (q t).tr).det = t ^ 2 * (q t).det := by
        simp only [M22.det, M22.smul, M22.tr]; ring
      rw [this]; exact mul_ne_zero (pow_ne_zero _ h2) h1
    have hcw : ((M22.smul t (q t).tr).inv.mul ⟨t, 0, 0, t⟩).tr = (q t).inv := by
      unfold M22.det at h1
      generalize q t = Q at h1
      simp only [M22.inv, M22.mul, M22.tr, M22.smul, M22.det]
      obtain ⟨D, hD⟩ : ∃ D, D = Q.v11 * Q.v22 - Q.v12 * Q.v21 := ⟨_, rfl⟩
      rw [show t * Q.v11 * (t * Q.v22) - t * Q.v21 * (t * Q.v12) = t ^ 2 * D by rw [hD]; ring, ← hD]
      rw [← hD] at h1
      ext <;> simp only <;> field_simp <;> ring
    unfold scaleAtSky
    rw [if_pos hb, hsteps t h2, solve_some hdet]
    simp only [Option.map_some, hcw]
  · exact t22.mul tid
  · exact t12.neg.mul tid
  · exact t21.neg.mul tid
  · exact t11.mul tid

/-- C57 (consistency). In both branches the two matrices are related by 3600 arcseconds per degree and
the cosine of the declination on the first column. -/
theorem C57_consistent (w : WcsObj) (sky : ℝ × ℝ) (dpix : ℝ) (approx : Bool) (cw d : M22)
    (hcos : Real.cos (sky.2 * (Real.pi / 180)) ≠ 0) (h : scaleAtSky w sky dpix approx = some (cw, d)) :
    cw.v11 = 3600 * d.v11 * Real.cos (sky.2 * (Real.pi / 180)) ∧ cw.v12 = 3600 * d.v12 ∧
    cw.v21 = 3600 * d.v21 * Real.cos (sky.2 * (Real.pi / 180)) ∧ cw.v22 = 3600 * d.v22 := by
  unfold scaleAtSky deg2rad at h
  split at h
  · obtain ⟨x, -, heq⟩ := Option.map_eq_some_iff.mp h
    obtain ⟨rfl, rfl⟩ := Prod.mk.inj heq
    simp only [M22.smul, M22.mul, diagOne, M22.tr]
    generalize Real.cos (sky.2 * (Real.pi / 180)) = C at hcos
    refine ⟨?_, ?_, ?_, ?_⟩
    · field_simp; ring
    · ring
    · field_simp; ring
    · ring
  · obtain ⟨x, -, heq⟩ := Option.map_eq_some_iff.mp h
    obtain ⟨rfl, rfl⟩ := Prod.mk.inj heq
    simp only [M22.smul, M22.mul, diagOne]
    refine ⟨?_, ?_, ?_, ?_⟩ <;> ring

/-- C57 (origin). The slow code's version, which counts pixels from another origin, gives the same. -/
theorem C57_origin (w : WcsObj) (sky : ℝ × ℝ) (dpix origin : ℝ) (approx : Bool) :
    stampScaleAtSky w sky dpix origin approx = scaleAtSky w sky dpix approx := by
  have : skySteps (w.shifted origin) sky dpix = skySteps w sky dpix := by
    simp only [skySteps, WcsObj.shifted, add_sub_cancel_right]
    rw [show (w.toPix sky).1 + origin + dpix - origin = (w.toPix sky).1 + dpix by ring,
      show (w.toPix sky).2 + origin + dpix - origin = (w.toPix sky).2 + dpix by ring]
  unfold stampScaleAtSky scaleAtSky
  rw [this]
  rfl

/-- C57 (stamps). The scale matrix found for the WCS of a stamp is the stamp's own scale matrix. -/
theorem C57_stamp (s : Stamp) (hs : s.scale.det ≠ 0) :
    ∃ cd, s.cd = some cd ∧ ∀ (w : WcsObj) (sky : ℝ × ℝ) (dpix : ℝ), w.hasDistortion = false →
      w.pixelScaleMatrix = cd →
      ∃ cw, scaleAtSky w sky dpix false = some (cw, s.scale) := by
  refine ⟨_, by unfold Stamp.cd; rw [inv_some hs]; rfl, ?_⟩
  intro w sky dpix hd hp
  have hinv : M22.smul 3600 (M22.smul (1 / 3600) s.scale.inv) = s.scale.inv := by
    ext <;> simp only [M22.smul] <;> ring
  have hdet : s.scale.inv.det ≠ 0 := by
    have : s.scale.inv.det = 1 / s.scale.det := by
      have h2 := hs
      unfold M22.det at h2
      simp only [M22.inv, M22.det]
      obtain ⟨D, hD⟩ : ∃ D, D = s.scale.v11 * s.scale.v22 - s.scale.v12 * s.scale.v21 := ⟨_, rfl⟩
      rw [← hD] at h2 ⊢
      field_simp
      rw [hD]; ring
    rw [this]; exact one_div_ne_zero hs
  have hii : s.scale.inv.inv = s.scale := by
    have h2 := hs
    unfold M22.det at h2
    have hd' : s.scale.inv.det = 1 / s.scale.det := by
      simp only [M22.inv, M22.det]
      obtain ⟨D, hD⟩ : ∃ D, D = s.scale.v11 * s.scale.v22 - s.scale.v12 * s.scale.v21 := ⟨_, rfl⟩
      rw [← hD] at h2 ⊢
      field_simp
      rw [hD]; ring
    unfold M22.inv
    simp only
    rw [show (⟨s.scale.v22 * (1 / s.scale.det), -s.scale.v12 * (1 / s.scale.det),
      -s.scale.v21 * (1 / s.scale.det), s.scale.v11 * (1 / s.scale.det)⟩ : M22) = s.scale.inv from rfl, hd']
    ext <;> simp only <;> field_simp
  refine ⟨(M22.smul 3600 s.scale).mul (diagOne (Real.cos (deg2rad sky.2))), ?_⟩
  unfold scaleAtSky
  have k : ¬ ((w.hasDistortion || false) = true) := by rw [hd]; simp
  rw [if_neg k, hp, hinv, inv_some hdet, hii]
  rfl

/-! ### The tangent projection -/

/-- First standard coordinate of the tangent projection about `(a0, d0)`, radians. -/
noncomputable def tanXi (a0 d0 a d : ℝ) : ℝ :=
  Real.cos d * Real.sin (a - a0) / (Real.sin d0 * Real.sin d + Real.cos d0 * Real.cos d * Real.cos (a - a0))

/-- Second standard coordinate. -/
noncomputable def tanEta (a0 d0 a d : ℝ) : ℝ :=
  (Real.cos d0 * Real.sin d - Real.sin d0 * Real.cos d * Real.cos (a - a0)) /
    (Real.sin d0 * Real.sin d + Real.cos d0 * Real.cos d * Real.cos (a - a0))

/-- The pixel position of a sky position (degrees) under an undistorted tangent projection about
`crval` with the given pixel scale matrix (degrees per pixel). -/
noncomputable def tanPix (psm : M22) (crval crpix sky : ℝ × ℝ) : ℝ × ℝ :=
  let xi := tanXi (deg2rad crval.1) (deg2rad crval.2) (deg2rad sky.1) (deg2rad sky.2) * (180 / Real.pi)
  let eta := tanEta (deg2rad crval.1) (deg2rad crval.2) (deg2rad sky.1) (deg2rad sky.2) * (180 / Real.pi)
  let v := psm.inv.mulVec (xi, eta)
  (v.1 + crpix.1, v.2 + crpix.2)

lemma hasDerivAt_deg (x : ℝ) : HasDerivAt deg2rad (Real.pi / 180) x := by
  exact Transform.hdc ((hasDerivAt_id x).mul_const (Real.pi / 180)) (fun _ => rfl) (by ring)

/-- Derivatives of the standard coordinates along the meridian of the reference point. -/
lemma tan_deriv (a0 d0 d : ℝ) (h : Real.cos (d - d0) ≠ 0) :
    HasDerivAt (fun a => tanXi a0 d0 a d) (Real.cos d / Real.cos (d - d0)) a0 ∧
    HasDerivAt (fun a => tanEta a0 d0 a d) 0 a0 := by
  have hden : Real.sin d0 * Real.sin d + Real.cos d0 * Real.cos d * Real.cos (a0 - a0) = Real.cos (d - d0) := by
    rw [sub_self, Real.cos_zero, Real.cos_sub]; ring
  have hs : HasDerivAt (fun a => Real.sin (a - a0)) 1 a0 := by
    exact Transform.hdc (((hasDerivAt_id a0).sub_const a0).sin) (fun _ => rfl) (by simp)
  have hc : HasDerivAt (fun a => Real.cos (a - a0)) 0 a0 := by
    exact Transform.hdc (((hasDerivAt_id a0).sub_const a0).cos) (fun _ => rfl) (by simp)
  have hD : HasDerivAt (fun a => Real.sin d0 * Real.sin d + Real.cos d0 * Real.cos d * Real.cos (a - a0)) 0 a0 := by
    have := (hc.const_mul (Real.cos d0 * Real.cos d)).const_add (Real.sin d0 * Real.sin d)
    simpa using this
  have hN1 : HasDerivAt (fun a => Real.cos d * Real.sin (a - a0)) (Real.cos d) a0 := by
    simpa using hs.const_mul (Real.cos d)
  have hN2 : HasDerivAt (fun a => Real.cos d0 * Real.sin d - Real.sin d0 * Real.cos d * Real.cos (a - a0)) 0 a0 := by
    have := (hc.const_mul (Real.sin d0 * Real.cos d)).const_sub (Real.cos d0 * Real.sin d)
    simpa using this
  have hne : Real.sin d0 * Real.sin d + Real.cos d0 * Real.cos d * Real.cos (a0 - a0) ≠ 0 := by rw [hden]; exact h
  constructor
  · have := hN1.div hD hne
    refine Transform.hdc this (fun _ => rfl) ?_
    rw [hden, sub_self, Real.sin_zero]
    field_simp
    ring
  · have := hN2.div hD hne
    refine Transform.hdc this (fun _ => rfl) ?_
    rw [hden]
    simp

/-- Along the meridian itself. -/
lemma tan_deriv_dec (a0 d0 : ℝ) :
    HasDerivAt (fun d => tanXi a0 d0 a0 d) 0 d0 ∧ HasDerivAt (fun d => tanEta a0 d0 a0 d) 1 d0 := by
  constructor
  · have : (fun d => tanXi a0 d0 a0 d) = fun _ => 0 := by
      funext d; simp [tanXi]
    rw [this]; exact hasDerivAt_const _ _
  · have hN : HasDerivAt (fun d => Real.cos d0 * Real.sin d - Real.sin d0 * Real.cos d * Real.cos (a0 - a0)) 1 d0 := by
      have h1 := (Real.hasDerivAt_sin d0).const_mul (Real.cos d0)
      have h2 := ((Real.hasDerivAt_cos d0).const_mul (Real.sin d0)).mul_const (Real.cos (a0 - a0))
      refine Transform.hdc (h1.sub h2) (fun _ => rfl) ?_
      rw [sub_self, Real.cos_zero]
      linear_combination -Real.sin_sq_add_cos_sq d0
    have hD : HasDerivAt (fun d => Real.sin d0 * Real.sin d + Real.cos d0 * Real.cos d * Real.cos (a0 - a0)) 0 d0 := by
      have h1 := (Real.hasDerivAt_sin d0).const_mul (Real.sin d0)
      have h2 := ((Real.hasDerivAt_cos d0).const_mul (Real.cos d0)).mul_const (Real.cos (a0 - a0))
      refine Transform.hdc (h1.add h2) (fun _ => rfl) ?_
      rw [sub_self, Real.cos_zero]
      ring
    have hden : Real.sin d0 * Real.sin d0 + Real.cos d0 * Real.cos d0 * Real.cos (a0 - a0) = 1 := by
      rw [sub_self, Real.cos_zero]; linear_combination Real.sin_sq_add_cos_sq d0
    have := hN.div hD (by rw [hden]; norm_num)
    refine Transform.hdc this (fun _ => rfl) ?_
    rw [hden]; norm_num

/-- The matrix branch in terms of the inverse of the pixel scale matrix. -/
lemma matrix_branch (w : WcsObj) (sky : ℝ × ℝ) (dpix : ℝ) (hd : w.hasDistortion = false)
    (hdet : w.pixelScaleMatrix.det ≠ 0) :
    ∃ d, scaleAtSky w sky dpix false =
      some (w.pixelScaleMatrix.inv.mul (diagOne (Real.cos (deg2rad sky.2))), d) := by
  have h3 : (M22.smul 3600 w.pixelScaleMatrix).det = 3600 ^ 2 * w.pixelScaleMatrix.det := by
    simp only [M22.det, M22.smul]; ring
  have hdet3 : (M22.smul 3600 w.pixelScaleMatrix).det ≠ 0 := by
    rw [h3]; exact mul_ne_zero (by norm_num) hdet
  have hi : M22.smul 3600 (M22.smul 3600 w.pixelScaleMatrix).inv = w.pixelScaleMatrix.inv := by
    simp only [M22.inv, h3]
    generalize w.pixelScaleMatrix.det = D at hdet
    ext <;> simp only [M22.smul] <;> field_simp
  refine ⟨(M22.smul 3600 w.pixelScaleMatrix).inv, ?_⟩
  unfold scaleAtSky
  have k : ¬ ((w.hasDistortion || false) = true) := by rw [hd]; simp
  rw [if_neg k, inv_some hdet3]
  simp only [Option.map_some, hi]

/-- Pixels move linearly with the standard coordinates. -/
lemma pix_deriv (psm : M22) (crpix : ℝ × ℝ) (xi eta : ℝ → ℝ) (x' e' t : ℝ)
    (hx : HasDerivAt xi x' (deg2rad t)) (he : HasDerivAt eta e' (deg2rad t)) :
    HasDerivAt (fun a => (psm.inv.mulVec (xi (deg2rad a) * (180 / Real.pi), eta (deg2rad a) * (180 / Real.pi))).1
      + crpix.1) (psm.inv.v11 * x' + psm.inv.v12 * e') t ∧
    HasDerivAt (fun a => (psm.inv.mulVec (xi (deg2rad a) * (180 / Real.pi), eta (deg2rad a) * (180 / Real.pi))).2
      + crpix.2) (psm.inv.v21 * x' + psm.inv.v22 * e') t := by
  have hpi := Real.pi_ne_zero
  have h1 : HasDerivAt (fun a => xi (deg2rad a) * (180 / Real.pi)) x' t := by
    refine Transform.hdc (((hx.comp t (hasDerivAt_deg t))).mul_const (180 / Real.pi)) (fun _ => rfl) ?_
    field_simp
  have h2 : HasDerivAt (fun a => eta (deg2rad a) * (180 / Real.pi)) e' t := by
    refine Transform.hdc (((he.comp t (hasDerivAt_deg t))).mul_const (180 / Real.pi)) (fun _ => rfl) ?_
    field_simp
  constructor
  · exact ((h1.const_mul psm.inv.v11).add (h2.const_mul psm.inv.v12)).add_const crpix.1
  · exact ((h1.const_mul psm.inv.v21).add (h2.const_mul psm.inv.v22)).add_const crpix.2

/-- C57 (the matrix branch, at the reference point). For an undistorted tangent projection the matrix
returned at the reference position is the derivative of the true sky to pixel map there. -/
theorem C57_tangent (w : WcsObj) (crval crpix : ℝ × ℝ) (dpix : ℝ) (hd : w.hasDistortion = false)
    (hdet : w.pixelScaleMatrix.det ≠ 0) :
    ∃ cw d, scaleAtSky w crval dpix false = some (cw, d) ∧
      HasDerivAt (fun a => (tanPix w.pixelScaleMatrix crval crpix (a, crval.2)).1) cw.v11 crval.1 ∧
      HasDerivAt (fun a => (tanPix w.pixelScaleMatrix crval crpix (a, crval.2)).2) cw.v21 crval.1 ∧
      HasDerivAt (fun b => (tanPix w.pixelScaleMatrix crval crpix (crval.1, b)).1) cw.v12 crval.2 ∧
      HasDerivAt (fun b => (tanPix w.pixelScaleMatrix crval crpix (crval.1, b)).2) cw.v22 crval.2 := by
  obtain ⟨d, hsc⟩ := matrix_branch w crval dpix hd hdet
  refine ⟨_, d, hsc, ?_⟩
  obtain ⟨x1, x2⟩ := tan_deriv (deg2rad crval.1) (deg2rad crval.2) (deg2rad crval.2) (by simp)
  obtain ⟨y1, y2⟩ := tan_deriv_dec (deg2rad crval.1) (deg2rad crval.2)
  obtain ⟨p1, p2⟩ := pix_deriv w.pixelScaleMatrix crpix _ _ _ _ _ x1 x2
  obtain ⟨p3, p4⟩ := pix_deriv w.pixelScaleMatrix crpix _ _ _ _ _ y1 y2
  refine ⟨Transform.hdc p1 (fun _ => rfl) ?_, Transform.hdc p2 (fun _ => rfl) ?_,
    Transform.hdc p3 (fun _ => rfl) ?_, Transform.hdc p4 (fun _ => rfl) ?_⟩ <;>
  simp [M22.mul, diagOne]

/-- C57 (the matrix branch, elsewhere). On the meridian of the reference point the true derivative in
right ascension is the returned column divided by the cosine of the distance from the reference
point: away from it the matrix branch is not the local linearisation. -/
theorem C57_tangent_refuted (w : WcsObj) (crval crpix : ℝ × ℝ) (dec dpix : ℝ)
    (hd : w.hasDistortion = false) (hdet : w.pixelScaleMatrix.det ≠ 0)
    (hc : Real.cos (deg2rad dec - deg2rad crval.2) ≠ 0) :
    ∃ cw d, scaleAtSky w (crval.1, dec) dpix false = some (cw, d) ∧
      HasDerivAt (fun a => (tanPix w.pixelScaleMatrix crval crpix (a, dec)).1)
        (cw.v11 / Real.cos (deg2rad dec - deg2rad crval.2)) crval.1 ∧
      HasDerivAt (fun a => (tanPix w.pixelScaleMatrix crval crpix (a, dec)).2)
        (cw.v21 / Real.cos (deg2rad dec - deg2rad crval.2)) crval.1 ∧
      (0 < |dec - crval.2| → |dec - crval.2| < 90 → |dec| < 90 →
        cw.v11 ≠ cw.v11 / Real.cos (deg2rad dec - deg2rad crval.2) ∨
        cw.v21 ≠ cw.v21 / Real.cos (deg2rad dec - deg2rad crval.2)) := by
  obtain ⟨d, hsc⟩ := matrix_branch w (crval.1, dec) dpix hd hdet
  refine ⟨_, d, hsc, ?_⟩
  obtain ⟨x1, x2⟩ := tan_deriv (deg2rad crval.1) (deg2rad crval.2) (deg2rad dec) hc
  obtain ⟨p1, p2⟩ := pix_deriv w.pixelScaleMatrix crpix _ _ _ _ _ x1 x2
  refine ⟨Transform.hdc p1 (fun _ => rfl) ?_, Transform.hdc p2 (fun _ => rfl) ?_, ?_⟩
  · simp [M22.mul, diagOne]; ring
  · simp [M22.mul, diagOne]; ring
  · intro h0 h90 hdec
    have hpi := Real.pi_pos
    have hlt : ∀ x : ℝ, |x| < 90 → |deg2rad x| < Real.pi / 2 := by
      intro x hx
      unfold deg2rad
      rw [abs_mul, abs_of_pos (by positivity : (0 : ℝ) < Real.pi / 180)]
      nlinarith
    have hcd : 0 < Real.cos (deg2rad dec) :=
      Real.cos_pos_of_mem_Ioo (abs_lt.mp (hlt dec hdec))
    have hsub : deg2rad dec - deg2rad crval.2 = deg2rad (dec - crval.2) := by unfold deg2rad; ring
    rw [hsub] at hc ⊢
    have hone : Real.cos (deg2rad (dec - crval.2)) < 1 := by
      rw [← Real.cos_abs, ← Real.cos_zero]
      refine Real.cos_lt_cos_of_nonneg_of_le_pi_div_two (le_refl _) (hlt _ h90).le ?_
      unfold deg2rad
      rw [abs_mul, abs_of_pos (by positivity : (0 : ℝ) < Real.pi / 180)]
      positivity
    have key : ∀ x : ℝ, x ≠ 0 → x ≠ x / Real.cos (deg2rad (dec - crval.2)) := by
      intro x hx h
      rw [eq_div_iff hc] at h
      have : x * (Real.cos (deg2rad (dec - crval.2)) - 1) = 0 := by linarith
      rcases mul_eq_zero.mp this with h | h
      · exact hx h
      · linarith
    by_contra hcon
    push Not at hcon
    have z1 : (w.pixelScaleMatrix.inv.mul (diagOne (Real.cos (deg2rad dec)))).v11 = 0 := by
      by_contra hx; exact key _ hx hcon.1
    have z2 : (w.pixelScaleMatrix.inv.mul (diagOne (Real.cos (deg2rad dec)))).v21 = 0 := by
      by_contra hx; exact key _ hx hcon.2
    simp only [M22.mul, diagOne, M22.inv, mul_zero, add_zero] at z1 z2
    have hi : 1 / w.pixelScaleMatrix.det ≠ 0 := one_div_ne_zero hdet
    have y1 : w.pixelScaleMatrix.v22 = 0 := by
      rcases mul_eq_zero.mp z1 with h | h
      · exact (mul_eq_zero.mp h).resolve_right hi
      · exact absurd h hcd.ne'
    have y2 : w.pixelScaleMatrix.v21 = 0 := by
      rcases mul_eq_zero.mp z2 with h | h
      · exact neg_eq_zero.mp ((mul_eq_zero.mp h).resolve_right hi)
      · exact absurd h hcd.ne'
    apply hdet
    unfold M22.det
    rw [y1, y2]; ring

/-! ## C58 -/

/-- C58 (inverse). With an invertible matrix both conversions of a stamp succeed and undo each other. -/
theorem C58_inverse (s : Stamp) (h : s.dpixDsky.det ≠ 0) :
    (∀ pix, ∃ sky, s.pixToSky pix = some sky ∧ s.skyToPix sky = pix) ∧
    (∀ sky, s.pixToSky (s.skyToPix sky) = some sky) := by
  have h2 := h
  unfold M22.det at h2
  unfold Stamp.pixToSky Stamp.skyToPix
  rw [inv_some h]
  simp only [Option.map_some, M22.inv, M22.mulVec, M22.det]
  obtain ⟨D, hD⟩ : ∃ D, D = s.dpixDsky.v11 * s.dpixDsky.v22 - s.dpixDsky.v12 * s.dpixDsky.v21 := ⟨_, rfl⟩
  rw [← hD] at h2 ⊢
  constructor
  · intro pix
    refine ⟨_, rfl, ?_⟩
    apply Prod.ext
    · simp only; field_simp; rw [hD]; ring
    · simp only; field_simp; rw [hD]; ring
  · intro sky
    congr 1
    apply Prod.ext
    · simp only; field_simp; rw [hD]; ring
    · simp only; field_simp; rw [hD]; ring

/-- C58 (singular). With a singular matrix the conversion to the sky raises. -/
theorem C58_singular (s : Stamp) (h : s.dpixDsky.det = 0) (pix : ℝ × ℝ) : s.pixToSky pix = none := by
  unfold Stamp.pixToSky linalgInv
  rw [if_pos h]; rfl

/-- C58 (kernel). The kernel centres a source, before the offset of the PSF gaussian, where a stamp
with the same matrix and reference puts it. -/
theorem C58_kernel (band : Nat) (e : Kernel.Exposure) (g : Nat) (src : Kernel.Source) (p : Kernel.Psf)
    (s : Stamp) (hcw : (e.astrom g).CW = s.dpixDsky) (hv : (e.astrom g).crval = s.crval)
    (hp : (e.astrom g).crpix = s.crpix) :
    (Kernel.imGauss band e g src p).xcen = (s.skyToPix (src.ra, src.dec)).1 + p.xcen ∧
    (Kernel.imGauss band e g src p).ycen = (s.skyToPix (src.ra, src.dec)).2 + p.ycen := by
  simp only [Kernel.imGauss, Kernel.getGaussianAndJacobian, Kernel.pixGauss, Stamp.skyToPix, hcw, hv, hp,
    and_self]

/-- C58 (markers). For a packed scene the positions computed from the stored astrometry and the stored
reference coordinates are, for sources at any positions, where the kernel puts the sources at those
positions less the reference. -/
theorem C58_markers (wcs : Patch.Sky ℝ → ℝ × ℝ) (cwAt : Patch.Sky ℝ → Patch.M22 ℝ)
    (scene moved : List (Patch.Sky ℝ)) (hl : moved.length = scene.length) :
    let packed := Patch.packMeta wcs cwAt scene
    ∃ out, skyToPix packed.2.2 (moved.map fun s => (s.ra, s.dec)) packed.2.1 = some out ∧
      out.length = moved.length ∧
      ∀ (i : Nat) (s : Patch.Sky ℝ), moved[i]? = some s → ∃ a, packed.2.2[i]? = some a ∧
        out[i]? = some (Patch.kernelPosition a ⟨s.ra - packed.2.1.ra, s.dec - packed.2.1.dec⟩) := by
  intro packed
  have hlen : packed.2.2.length = scene.length := by
    simp [packed, Patch.packMeta, Patch.packAstrometry, Patch.zerocoords]
  refine ⟨_, by unfold skyToPix; rw [if_neg (by simp [hlen, hl])], by simp [hlen, hl], ?_⟩
  intro i s hs
  obtain ⟨hi, -⟩ := List.getElem?_eq_some_iff.mp hs
  have hi2 : i < packed.2.2.length := by omega
  refine ⟨packed.2.2[i], List.getElem?_eq_getElem hi2, ?_⟩
  rw [List.getElem?_zipWith, List.getElem?_eq_getElem hi2, List.getElem?_map, hs]
  simp only [Option.map_some, placeOne, Patch.kernelPosition]
  congr 1
  apply Prod.ext <;> simp only <;> ring

/-- C58 (markers of the packed sources). In particular the packed sources themselves are marked at
their pixel positions. -/
theorem C58_markers_scene (wcs : Patch.Sky ℝ → ℝ × ℝ) (cwAt : Patch.Sky ℝ → Patch.M22 ℝ)
    (scene : List (Patch.Sky ℝ)) :
    let packed := Patch.packMeta wcs cwAt scene
    skyToPix packed.2.2 (scene.map fun s => (s.ra, s.dec)) packed.2.1 = some (scene.map wcs) := by
  intro packed
  obtain ⟨out, h1, h2, h3⟩ := C58_markers wcs cwAt scene scene rfl
  rw [h1]
  congr 1
  apply List.ext_getElem?
  intro i
  rw [List.getElem?_map]
  cases hs : scene[i]? with
  | none =>
    rw [List.getElem?_eq_none_iff] at hs
    rw [List.getElem?_eq_none (by omega)]; rfl
  | some s =>
    obtain ⟨a, ha, ho⟩ := h3 i s hs
    obtain ⟨s', a', hs', ha', hk, -⟩ := Patch.C46_positions wcs cwAt scene i s hs
    rw [ha] at ha'
    obtain rfl := Option.some.inj ha'
    rw [ho]
    have : s' = ⟨s.ra - packed.2.1.ra, s.dec - packed.2.1.dec⟩ := by
      simp only [Patch.packMeta, Patch.zerocoords, List.getElem?_map, hs, Option.map_some] at hs'
      exact (Option.some.inj hs').symm
    rw [← this, hk]; rfl

/-- C58 refuted for another number of positions: all are placed with the astrometry of the first
packed source, so a subset of the sources can be misplaced. -/
theorem C58_markers_refuted : ∃ (wcs : Patch.Sky ℝ → ℝ × ℝ) (cwAt : Patch.Sky ℝ → Patch.M22 ℝ)
    (a b : Patch.Sky ℝ),
    let packed := Patch.packMeta wcs cwAt [a, b]
    ∃ out, skyToPix packed.2.2 [(b.ra, b.dec)] packed.2.1 = some [out] ∧ out ≠ wcs b := by
  refine ⟨fun s => (s.ra ^ 2, s.dec), fun s => ⟨2 * s.ra, 0, 0, 1⟩, ⟨0, 0⟩, ⟨1, 0⟩, ?_⟩
  refine ⟨(0, 0), ?_, ?_⟩
  · simp [skyToPix, Patch.packMeta, Patch.packAstrometry, Patch.zerocoords, placeOne]
  · intro h
    have := congrArg Prod.fst h
    norm_num at this

end Forcepho.Wcs

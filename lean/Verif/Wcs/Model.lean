import Verif.Kernel.Model
import Verif.Patch.Model
import Verif.Region.Model

/-! # Local astrometry (forcepho/utils/wcs.py, forcepho/slow/stamp.py)

Floating point numbers are idealised to the reals.  The world coordinate system object is astropy's
or gwcs's; here it is a pair of functions with a flag and a matrix.  `none` is numpy's
`LinAlgError`. -/

set_option autoImplicit false

namespace Forcepho.Wcs

open Kernel (M22)

/-- What `scale_at_sky` uses of a WCS object. -/
structure WcsObj where
  hasDistortion : Bool
  toPix : ℝ × ℝ → ℝ × ℝ
  toSky : ℝ × ℝ → ℝ × ℝ
  pixelScaleMatrix : M22

open Classical in
/-- `np.linalg.inv`; raises for singular matrices. -/
noncomputable def linalgInv (a : M22) : Option M22 := if a.det = 0 then none else some a.inv

open Classical in
/-- `np.linalg.solve`; raises for singular matrices. -/
noncomputable def linalgSolve (a b : M22) : Option M22 :=
  if a.det = 0 then none else some (a.inv.mul b)

/-- `np.eye(2)` with the upper left element replaced. -/
def diagOne (x : ℝ) : M22 := ⟨x, 0, 0, 1⟩

/-- The matrix `St` of `scale_at_sky` (wcs.py:120-129). -/
noncomputable def skySteps (w : WcsObj) (sky : ℝ × ℝ) (dpix : ℝ) : M22 :=
  let p0 := w.toPix sky
  let s1 := w.toSky (p0.1 + dpix, p0.2)
  let s2 := w.toSky (p0.1, p0.2 + dpix)
  ⟨s1.1 - sky.1, s1.2 - sky.2, s2.1 - sky.1, s2.2 - sky.2⟩

/-- `scale_at_sky` (utils/wcs.py:91-145): the pair `(CW_mat, D_mat)`. -/
noncomputable def scaleAtSky (w : WcsObj) (sky : ℝ × ℝ) (dpix : ℝ) (makeApprox : Bool) :
    Option (M22 × M22) :=
  if w.hasDistortion || makeApprox then
    (linalgSolve (skySteps w sky dpix) ⟨dpix, 0, 0, dpix⟩).map fun x =>
      let cw := x.tr
      (cw, M22.smul (1 / 3600) (cw.mul (diagOne (Real.cos (Region.deg2rad sky.2))⁻¹)))
  else
    (linalgInv (M22.smul 3600 w.pixelScaleMatrix)).map fun d =>
      ((M22.smul 3600 d).mul (diagOne (Real.cos (Region.deg2rad sky.2))), d)

/-- The same WCS with pixels counted from `origin` (the astropy keyword; slow/stamp.py:216-217, 234-238). -/
def WcsObj.shifted (w : WcsObj) (origin : ℝ) : WcsObj :=
  { w with
    toPix := fun s => ((w.toPix s).1 + origin, (w.toPix s).2 + origin)
    toSky := fun p => w.toSky (p.1 - origin, p.2 - origin) }

/-- `scale_at_sky` of slow/stamp.py:169-228, which passes an `origin` to the WCS. -/
noncomputable def stampScaleAtSky (w : WcsObj) (sky : ℝ × ℝ) (dpix origin : ℝ) (makeApprox : Bool) :
    Option (M22 × M22) :=
  scaleAtSky (w.shifted origin) sky dpix makeApprox

/-- The astrometry of a `PostageStamp` (slow/stamp.py:29-41). -/
structure Stamp where
  scale : M22
  dpixDsky : M22
  crval : ℝ × ℝ
  crpix : ℝ × ℝ

/-- `PostageStamp.sky_to_pix` (slow/stamp.py:63-77). -/
def Stamp.skyToPix (s : Stamp) (sky : ℝ × ℝ) : ℝ × ℝ :=
  let v := s.dpixDsky.mulVec (sky.1 - s.crval.1, sky.2 - s.crval.2)
  (v.1 + s.crpix.1, v.2 + s.crpix.2)

/-- `PostageStamp.pix_to_sky` (slow/stamp.py:80-96). -/
noncomputable def Stamp.pixToSky (s : Stamp) (pix : ℝ × ℝ) : Option (ℝ × ℝ) :=
  (linalgInv s.dpixDsky).map fun i =>
    let v := i.mulVec (pix.1 - s.crpix.1, pix.2 - s.crpix.2)
    (v.1 + s.crval.1, v.2 + s.crval.2)

/-- The matrix part of `PostageStamp.wcs` (slow/stamp.py:137-154): the pixel scale matrix of the WCS
made from a stamp.  The projection itself is astropy's. -/
noncomputable def Stamp.cd (s : Stamp) : Option M22 :=
  (linalgInv s.scale).map fun i => M22.smul (1 / 3600) i

/-- One source in `utils.wcs.sky_to_pix` (wcs.py:174-175). -/
def placeOne (a : Patch.Astrom ℝ) (ref : Patch.Sky ℝ) (sky : ℝ × ℝ) : ℝ × ℝ :=
  let dra := sky.1 - (a.crval.ra + ref.ra)
  let ddec := sky.2 - (a.crval.dec + ref.dec)
  (a.cw.v11 * dra + a.cw.v12 * ddec + a.crpix.1, a.cw.v21 * dra + a.cw.v22 * ddec + a.crpix.2)

/-- `utils.wcs.sky_to_pix` (wcs.py:148-177) for the stored per-source astrometry of an exposure:
with as many entries as positions they are paired, otherwise the first entry serves all.  `none`:
no entry (IndexError). -/
def skyToPix (exp : List (Patch.Astrom ℝ)) (sky : List (ℝ × ℝ)) (ref : Patch.Sky ℝ) :
    Option (List (ℝ × ℝ)) :=
  if exp.length ≠ sky.length then exp.head?.map fun a => sky.map (placeOne a ref)
  else some (List.zipWith (fun a s => placeOne a ref s) exp sky)

end Forcepho.Wcs

import Verif.Kernel.Model

/-! # The pure-Python likelihood (forcepho/slow/gaussmodel.py, slow/likelihood.py)

Over the reals.  Divisions that are zero by zero in the code give NaN, which reaches every derivative of
the source; derivatives are therefore optional.  The 2 × 2 matrix type is the one of `Verif.Kernel`. -/

set_option autoImplicit false

namespace Forcepho.Slow

open Forcepho.Kernel (M22 Param Pixel)

/-! ## Matrix helpers (gaussmodel.py:534-646) -/

/-- `scale_matrix` (gaussmodel.py:535-539). -/
noncomputable def scaleMatrix (q : ℝ) : M22 := ⟨1 / q, 0, 0, q⟩

/-- `rotation_matrix` (gaussmodel.py:542-546). -/
noncomputable def rotationMatrix (t : ℝ) : M22 := ⟨Real.cos t, -Real.sin t, Real.sin t, Real.cos t⟩

/-- `scale_matrix_deriv` (gaussmodel.py:550-553). -/
noncomputable def scaleMatrixDeriv (q : ℝ) : M22 := ⟨-1 / q ^ 2, 0, 0, 1⟩

/-- `rotation_matrix_deriv` (gaussmodel.py:557-561). -/
noncomputable def rotationMatrixDeriv (t : ℝ) : M22 := ⟨-Real.sin t, -Real.cos t, Real.cos t, -Real.sin t⟩

/-- `fast_det_2x2` (gaussmodel.py:584-592). -/
def fastDet (a : M22) : ℝ := a.v11 * a.v22 - a.v21 * a.v12

/-- `fast_inv_2x2` (gaussmodel.py:565-580). -/
noncomputable def fastInv (a : M22) : M22 :=
  let d := a.v11 * a.v22 - a.v21 * a.v12
  ⟨a.v22 / d, -a.v12 / d, -a.v21 / d, a.v11 / d⟩

/-- `fast_trace_2x2` (gaussmodel.py:596-604). -/
def fastTrace (a : M22) : ℝ := a.v11 + a.v22

/-- `fast_dot_dot_2x2` (gaussmodel.py:608-622). -/
def dotDot (a b c : M22) : M22 :=
  ⟨(a.v11 * b.v11 + a.v12 * b.v21) * c.v11 + (a.v11 * b.v12 + a.v12 * b.v22) * c.v21,
   (a.v11 * b.v11 + a.v12 * b.v21) * c.v12 + (a.v11 * b.v12 + a.v12 * b.v22) * c.v22,
   (a.v21 * b.v11 + a.v22 * b.v21) * c.v11 + (a.v21 * b.v12 + a.v22 * b.v22) * c.v21,
   (a.v21 * b.v11 + a.v22 * b.v21) * c.v12 + (a.v21 * b.v12 + a.v22 * b.v22) * c.v22⟩

/-! ## Data -/

/-- One gaussian of a source profile. -/
structure Comp where
  cov : M22
  amp : ℝ
  dAmpDn : ℝ
  dAmpDrh : ℝ

/-- One gaussian of a PSF. -/
structure PComp where
  amp : ℝ
  mean : ℝ × ℝ
  cov : M22

/-- A source; `flux` is the one for the stamp's filter (gaussmodel.py:116-120). -/
structure Source where
  ra : ℝ
  dec : ℝ
  q : ℝ
  pa : ℝ
  flux : ℝ
  comps : List Comp

/-- A postage stamp. `arcsec`: the PSF is given in arcsec. -/
structure Stamp where
  D : M22
  CW : M22
  crpix : ℝ × ℝ
  crval : ℝ × ℝ
  G : ℝ
  psf : List PComp
  arcsec : Bool
  pixels : List Pixel

/-- `ImageGaussian` (gaussmodel.py:24-47). -/
@[ext] structure Gauss where
  amp : ℝ
  xcen : ℝ
  ycen : ℝ
  fxx : ℝ
  fyy : ℝ
  fxy : ℝ

/-- Six numbers in the order amplitude, x, y, Fxx, Fyy, Fxy. -/
@[ext] structure Row where
  dA : ℝ
  dx : ℝ
  dy : ℝ
  dFxx : ℝ
  dFyy : ℝ
  dFxy : ℝ

/-! ## Converting a source to image gaussians -/

variable (s : Source) (st : Stamp)

/-- The transformation matrix `T` (gaussmodel.py:107-109). -/
noncomputable def tMatrix : M22 := dotDot st.D (rotationMatrix s.pa) (scaleMatrix s.q)

/-- The PSF covariance in pixels (gaussmodel.py:126-133): `np.matmul(D, np.matmul(C, D.T))`. -/
def psfCov (p : PComp) : M22 := if st.arcsec then (st.D.mul (p.cov.mul st.D.tr)) else p.cov

/-- The PSF offsets in pixels (gaussmodel.py:126-133).  For a PSF in arcsec the code multiplies the 2 × 2
matrix `D` with the array of offsets, which has one row per gaussian: this raises unless there are two
gaussians, and then combines the offsets of different gaussians. -/
def psfMeans : Option (List (ℝ × ℝ)) :=
  if st.arcsec then
    match st.psf with
    | [p0, p1] => some
        [(st.D.v11 * p0.mean.1 + st.D.v12 * p1.mean.1, st.D.v11 * p0.mean.2 + st.D.v12 * p1.mean.2),
         (st.D.v21 * p0.mean.1 + st.D.v22 * p1.mean.1, st.D.v21 * p0.mean.2 + st.D.v22 * p1.mean.2)]
    | _ => none
  else some (st.psf.map (·.mean))

/-- The image covariance of one pair (gaussmodel.py:112, 169): `np.matmul(T, np.matmul(C, T.T))`. -/
noncomputable def sigma (c : Comp) (p : PComp) : M22 :=
  ((tMatrix s st).mul (c.cov.mul (tMatrix s st).tr)).add (psfCov st p)

/-- `_convert_to_gaussians` (gaussmodel.py:159-183) for one pair; `m` is the PSF offset in pixels. -/
noncomputable def toGaussian (c : Comp) (p : PComp) (m : ℝ × ℝ) : Gauss :=
  let f := fastInv (sigma s st c p)
  let smean := st.CW.mulVec (s.ra - st.crval.1, s.dec - st.crval.2)
  let flux := s.flux * st.G
  { amp := flux * c.amp * p.amp * Real.sqrt (fastDet f) / (2 * Real.pi)
    xcen := smean.1 + st.crpix.1 + m.1
    ycen := smean.2 + st.crpix.2 + m.2
    fxx := f.v11
    fyy := f.v22
    fxy := f.v21 }

/-- `_get_gaussian_gradients` (gaussmodel.py:273-332) for one pair: the jacobian. -/
noncomputable def derivs (c : Comp) (p : PComp) : Param → Row :=
  let T := tMatrix s st
  let Sigma := (dotDot T c.cov T.tr).add (psfCov st p)
  let F := fastInv Sigma
  let detF := fastDet F
  let K := s.flux * st.G * c.amp * p.amp * Real.sqrt detF / (2 * Real.pi)
  let dT_dq := dotDot st.D (rotationMatrix s.pa) (scaleMatrixDeriv s.q)
  let dT_dpa := dotDot st.D (rotationMatrixDeriv s.pa) (scaleMatrix s.q)
  let dSigma_dq := (dotDot T c.cov dT_dq.tr).add (dotDot dT_dq c.cov T.tr)
  let dSigma_dpa := (dotDot T c.cov dT_dpa.tr).add (dotDot dT_dpa c.cov T.tr)
  let dF_dq := M22.smul (-1) (dotDot F dSigma_dq F)
  let dF_dpa := M22.smul (-1) (dotDot F dSigma_dpa F)
  let ddetF_dq := detF * fastTrace (Sigma.mul dF_dq)
  let ddetF_dpa := detF * fastTrace (Sigma.mul dF_dpa)
  fun
    | .flux => ⟨K / s.flux, 0, 0, 0, 0, 0⟩
    | .ra => ⟨0, st.CW.v11, st.CW.v21, 0, 0, 0⟩
    | .dec => ⟨0, st.CW.v12, st.CW.v22, 0, 0, 0⟩
    | .q => ⟨K / (2 * detF) * ddetF_dq, 0, 0, dF_dq.v11, dF_dq.v22, dF_dq.v21⟩
    | .pa => ⟨K / (2 * detF) * ddetF_dpa, 0, 0, dF_dpa.v11, dF_dpa.v22, dF_dpa.v21⟩
    | .sersic => ⟨K / c.amp * c.dAmpDn, 0, 0, 0, 0, 0⟩
    | .rh => ⟨K / c.amp * c.dAmpDrh, 0, 0, 0, 0, 0⟩

/-- Are the divisions of the jacobian by nonzero numbers? -/
def DerivsOk (c : Comp) (p : PComp) : Prop :=
  fastDet (sigma s st c p) ≠ 0 ∧ s.flux ≠ 0 ∧ c.amp ≠ 0

/-- A gaussian with its jacobian. -/
structure Full where
  g : Gauss
  J : Param → Row
  ok : Prop

/-- The gaussians of a source (`GaussianImageGalaxy`): profile gaussians outside, PSF gaussians inside
(gaussmodel.py:159-183, 265-267); `none` when the conversion raises. -/
noncomputable def gig : Option (List Full) :=
  match psfMeans st with
  | none => none
  | some ms => some (s.comps.map fun c => (st.psf.zip ms).map fun pm =>
      (⟨toGaussian s st c pm.1 pm.2, derivs s st c pm.1, DerivsOk s st c pm.1⟩ : Full)).flatten

/-! ## Evaluating a gaussian (gaussmodel.py:351-476) -/

/-- The options of `compute_gaussian`. -/
structure Opts where
  secondOrder : Bool := true
  useDet : Bool := false

/-- `H`. -/
noncomputable def hOf (o : Opts) (g : Gauss) (x y : ℝ) : ℝ :=
  let dx := x - g.xcen
  let dy := y - g.ycen
  let vx := g.fxx * dx + g.fxy * dy
  let vy := g.fyy * dy + g.fxy * dx
  if o.secondOrder then 1 + (vx * vx + vy * vy - g.fxx - g.fyy) / 24 else 1

/-- `root_det`. -/
noncomputable def rootDet (o : Opts) (g : Gauss) : ℝ :=
  if o.useDet then Real.sqrt (g.fxx * g.fyy - g.fxy * g.fxy) else 1

/-- The counts `C`. -/
noncomputable def counts (o : Opts) (g : Gauss) (x y : ℝ) : ℝ :=
  let dx := x - g.xcen
  let dy := y - g.ycen
  let vx := g.fxx * dx + g.fxy * dy
  let vy := g.fyy * dy + g.fxy * dx
  let Gp := Real.exp (-0.5 * (dx * vx + dy * vy))
  g.amp * Gp * hOf o g x y * rootDet o g

/-- The six derivatives of the counts. -/
noncomputable def gradients (o : Opts) (g : Gauss) (x y : ℝ) : Row :=
  let dx := x - g.xcen
  let dy := y - g.ycen
  let vx := g.fxx * dx + g.fxy * dy
  let vy := g.fyy * dy + g.fxy * dx
  let C := counts o g x y
  let c_h := if o.secondOrder then C / hOf o g x y else 0
  let c_d := if o.useDet then C / (rootDet o g * rootDet o g) else 0
  { dA := C / g.amp
    dx := C * vx - c_h * (g.fxx * vx + g.fxy * vy) / 12
    dy := C * vy - c_h * (g.fyy * vy + g.fxy * vx) / 12
    dFxx := -0.5 * C * dx * dx - c_h * (1 - 2 * dx * vx) / 24 + 0.5 * c_d * g.fyy
    dFyy := -0.5 * C * dy * dy - c_h * (1 - 2 * dy * vy) / 24 + 0.5 * c_d * g.fxx
    dFxy := -1 * C * dx * dy + c_h * (dy * vx + dx * vy) / 12 - c_d * g.fxy }

/-- Are the divisions in `gradients` by nonzero numbers? -/
def GradOk (o : Opts) (g : Gauss) (x y : ℝ) : Prop :=
  g.amp ≠ 0 ∧ (o.secondOrder = true → hOf o g x y ≠ 0) ∧ (o.useDet = true → rootDet o g ≠ 0)

/-! ## The work plans (likelihood.py:178-316) -/

/-- One row of a jacobian times six derivatives. -/
def Row.dot (a b : Row) : ℝ :=
  a.dA * b.dA + a.dx * b.dx + a.dy * b.dy + a.dFxx * b.dFxx + a.dFyy * b.dFyy + a.dFxy * b.dFxy

/-- No NaN among the derivatives of a source. -/
def SourceOk (o : Opts) (px : List Pixel) (gs : List Full) : Prop :=
  ∀ f ∈ gs, f.ok ∧ ∀ p ∈ px, GradOk o f.g p.x p.y

/-- What a plan returns: the log-likelihood and for each active source the derivatives, if numbers. -/
structure LnLike where
  lnlike : ℝ
  grads : List (Option (Param → ℝ))

/-- `residual[i, :]` of one source in `WorkPlan.process_pixels` (likelihood.py:224-232). -/
noncomputable def plainResidual (o : Opts) (gs : List Full) (p : Pixel) : ℝ :=
  gs.foldl (fun r f => r - counts o f.g p.x p.y) 0

/-- `chi` in `WorkPlan.lnlike` (likelihood.py:250): `residual` has rows for the fixed sources too, but
they stay zero. -/
noncomputable def plainChi (o : Opts) (active fixed : List (List Full)) (p : Pixel) : ℝ :=
  (p.data + ((active.map fun gs => plainResidual o gs p).sum + (fixed.map fun _ => (0 : ℝ)).sum)) * p.ierr

/-- `gradients[i, :, :]` (likelihood.py:237). -/
noncomputable def plainImageGrad (o : Opts) (gs : List Full) (prm : Param) (p : Pixel) : ℝ :=
  gs.foldl (fun r f => r + (f.J prm).dot (gradients o f.g p.x p.y)) 0

/-- `WorkPlan.lnlike` (likelihood.py:239-252) when the options ask for derivatives. -/
noncomputable def plainLnlike (o : Opts) (px : List Pixel) (active fixed : List (List Full)) : LnLike :=
  open Classical in
  { lnlike := -0.5 * (px.map fun p => plainChi o active fixed p * plainChi o active fixed p).sum
    grads := active.map fun gs => if SourceOk o px gs then
        some fun prm => (px.map fun p => plainImageGrad o gs prm p * (plainChi o active fixed p * p.ierr)).sum
      else none }

/-- `residual` in `FastWorkPlan.process_pixels` (likelihood.py:287-293). -/
noncomputable def fastResidual (o : Opts) (active fixed : List (List Full)) (p : Pixel) : ℝ :=
  (active ++ fixed).foldl (fun r gs => gs.foldl (fun r f => r - counts o f.g p.x p.y) r) p.data

/-- `np.matmul(dI_dphi, self.chivar)` (likelihood.py:306). -/
noncomputable def chivarRow (o : Opts) (px : List Pixel) (chivar : Pixel → ℝ) (g : Gauss) : Row :=
  { dA := (px.map fun p => (gradients o g p.x p.y).dA * chivar p).sum
    dx := (px.map fun p => (gradients o g p.x p.y).dx * chivar p).sum
    dy := (px.map fun p => (gradients o g p.x p.y).dy * chivar p).sum
    dFxx := (px.map fun p => (gradients o g p.x p.y).dFxx * chivar p).sum
    dFyy := (px.map fun p => (gradients o g p.x p.y).dFyy * chivar p).sum
    dFxy := (px.map fun p => (gradients o g p.x p.y).dFxy * chivar p).sum }

/-- `FastWorkPlan.lnlike` (likelihood.py:282-316). -/
noncomputable def fastLnlike (o : Opts) (px : List Pixel) (active fixed : List (List Full)) : LnLike :=
  open Classical in
  let chi := fun p : Pixel => fastResidual o active fixed p * p.ierr
  let chivar := fun p : Pixel => chi p * p.ierr
  { lnlike := -0.5 * (px.map fun p => chi p * chi p).sum
    grads := active.map fun gs => if SourceOk o px gs then
        some fun prm => gs.foldl (fun r f => r + (f.J prm).dot (chivarRow o px chivar f.g)) 0
      else none }

/-! ## The shared options

`compute_keywords` is a class attribute (likelihood.py:186): one dictionary for all plans. -/

/-- The entry `compute_deriv` of the shared dictionary: absent, or its value. -/
abbrev Shared := Option Bool

/-- What happened. -/
inductive Outcome where
  | value (r : LnLike)
  | raised

/-- `WorkPlan.lnlike` with the shared options: without derivatives the two results of
`compute_gaussian` are one array, which cannot be unpacked (unless it has two pixels, which is not
modelled as it is neither right nor an error). -/
noncomputable def runPlain (sh : Shared) (o : Opts) (px : List Pixel) (active fixed : List (List Full)) : Outcome × Shared :=
  if sh = some false ∧ active.flatten ≠ [] then (.raised, sh)
  else (.value (plainLnlike o px active fixed), sh)

/-- `FastWorkPlan.lnlike` with the shared options: it sets the entry before every gaussian
(likelihood.py:290, 299). -/
noncomputable def runFast (sh : Shared) (o : Opts) (px : List Pixel) (active fixed : List (List Full)) : Outcome × Shared :=
  let sh1 := if (active ++ fixed).flatten ≠ [] then some false else sh
  let sh2 := if active.flatten ≠ [] then some true else sh1
  (.value (fastLnlike o px active fixed), sh2)

end Forcepho.Slow

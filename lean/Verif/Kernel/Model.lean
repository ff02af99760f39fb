import Mathlib.Analysis.SpecialFunctions.Trigonometric.Basic
import Mathlib.Analysis.SpecialFunctions.Trigonometric.Deriv
import Mathlib.Analysis.SpecialFunctions.Sqrt
import Mathlib.Analysis.SpecialFunctions.ExpDeriv

/-! # The likelihood kernel (forcepho/src)

The C++ kernel with `float` and `double` idealised to the reals.  The flattened arrays of a patch are
presented per exposure; the index arithmetic is modelled in `Verif.Kernel.Layout`. -/

set_option autoImplicit false

namespace Forcepho.Kernel

/-! ## 2 × 2 matrices (matrix22.cc) -/

/-- `matrix22` (matrix22.cc:32-34), in row order. -/
@[ext] structure M22 where
  v11 : ℝ
  v12 : ℝ
  v21 : ℝ
  v22 : ℝ

namespace M22

/-- `rot` (matrix22.cc:70-73). -/
noncomputable def rot (t : ℝ) : M22 := ⟨Real.cos t, -Real.sin t, Real.sin t, Real.cos t⟩

/-- `rotation_matrix_deriv` (matrix22.cc:75-79). -/
noncomputable def rotDeriv (t : ℝ) : M22 := ⟨-Real.sin t, -Real.cos t, Real.cos t, -Real.sin t⟩

/-- `scale` (matrix22.cc:81-83). -/
noncomputable def scale (q : ℝ) : M22 := ⟨1 / q, 0, 0, q⟩

/-- `scale_matrix_deriv` (matrix22.cc:85-88). -/
noncomputable def scaleDeriv (q : ℝ) : M22 := ⟨-1 / (q * q), 0, 0, 1⟩

/-- `T` (matrix22.cc:95). -/
def tr (a : M22) : M22 := ⟨a.v11, a.v21, a.v12, a.v22⟩

/-- `det` (matrix22.cc:98). -/
def det (a : M22) : ℝ := a.v11 * a.v22 - a.v12 * a.v21

/-- `trace` (matrix22.cc:101). -/
def trace (a : M22) : ℝ := a.v11 + a.v22

/-- `inv` (matrix22.cc:104-107). -/
noncomputable def inv (a : M22) : M22 :=
  let idet := 1 / a.det
  ⟨a.v22 * idet, -a.v12 * idet, -a.v21 * idet, a.v11 * idet⟩

/-- scalar times matrix (matrix22.cc:123-125). -/
def smul (s : ℝ) (a : M22) : M22 := ⟨s * a.v11, s * a.v12, s * a.v21, s * a.v22⟩

/-- matrix sum (matrix22.cc:128-130). -/
def add (a b : M22) : M22 := ⟨a.v11 + b.v11, a.v12 + b.v12, a.v21 + b.v21, a.v22 + b.v22⟩

/-- matrix difference (matrix22.cc:131-133). -/
def sub (a b : M22) : M22 := ⟨a.v11 - b.v11, a.v12 - b.v12, a.v21 - b.v21, a.v22 - b.v22⟩

/-- matrix product (matrix22.cc:136-139). -/
def mul (a b : M22) : M22 :=
  ⟨a.v11 * b.v11 + a.v12 * b.v21, a.v11 * b.v12 + a.v12 * b.v22,
   a.v21 * b.v11 + a.v22 * b.v21, a.v21 * b.v12 + a.v22 * b.v22⟩

/-- `ABA` (matrix22.cc:144-150). -/
def ABA (a b : M22) : M22 :=
  ⟨a.v11 * a.v11 * b.v11 + a.v11 * a.v21 * b.v12 + a.v11 * a.v12 * b.v21 + a.v12 * a.v21 * b.v22,
   a.v11 * a.v12 * b.v11 + a.v11 * a.v22 * b.v12 + a.v12 * a.v12 * b.v21 + a.v12 * a.v22 * b.v22,
   a.v11 * a.v21 * b.v11 + a.v21 * a.v21 * b.v12 + a.v11 * a.v22 * b.v21 + a.v21 * a.v22 * b.v22,
   a.v12 * a.v21 * b.v11 + a.v21 * a.v22 * b.v12 + a.v12 * a.v22 * b.v21 + a.v22 * a.v22 * b.v22⟩

/-- `AAt` (matrix22.cc:153-156). -/
def AAt (a : M22) : M22 :=
  let tmp := a.v11 * a.v21 + a.v12 * a.v22
  ⟨a.v11 * a.v11 + a.v12 * a.v12, tmp, tmp, a.v21 * a.v21 + a.v22 * a.v22⟩

/-- `AtA` (matrix22.cc:158-161). -/
def AtA (a : M22) : M22 :=
  let tmp := a.v11 * a.v12 + a.v21 * a.v22
  ⟨a.v11 * a.v11 + a.v21 * a.v21, tmp, tmp, a.v12 * a.v12 + a.v22 * a.v22⟩

/-- `symABt` (matrix22.cc:164-167). -/
def symABt (a b : M22) : M22 :=
  let tmp := a.v11 * b.v21 + a.v12 * b.v22 + a.v21 * b.v11 + a.v22 * b.v12
  ⟨2 * (a.v11 * b.v11 + a.v12 * b.v12), tmp, tmp, 2 * (a.v21 * b.v21 + a.v22 * b.v22)⟩

/-- `BtAB` (matrix22.cc:172-176), for symmetric `A`. -/
def BtAB (a b : M22) : M22 :=
  let c := a.mul b
  let tmp := b.v11 * c.v12 + b.v21 * c.v22
  ⟨b.v11 * c.v11 + b.v21 * c.v21, tmp, tmp, b.v12 * c.v12 + b.v22 * c.v22⟩

/-- `BABt` (matrix22.cc:177-181), for symmetric `A`. -/
def BABt (a b : M22) : M22 :=
  let c := b.mul a
  let tmp := c.v11 * b.v21 + c.v12 * b.v22
  ⟨c.v11 * b.v11 + c.v12 * b.v12, tmp, tmp, c.v21 * b.v21 + c.v22 * b.v22⟩

/-- `vtAv` (matrix22.cc:184-186). -/
def vtAv (a : M22) (x y : ℝ) : ℝ := x * x * a.v11 + x * y * (a.v12 + a.v21) + y * y * a.v22

/-- `Av` (matrix22.cc:189-200). -/
def mulVec (a : M22) (v : ℝ × ℝ) : ℝ × ℝ :=
  (a.v11 * v.1 + a.v12 * v.2, a.v21 * v.1 + a.v22 * v.2)

end M22

/-! ## Data -/

/-- `PSFSourceGaussian` (patch.cc:103-119). -/
structure Psf where
  amp : ℝ
  xcen : ℝ
  ycen : ℝ
  cxx : ℝ
  cyy : ℝ
  cxy : ℝ
  bin : Nat

/-- `Source` (proposal.cu:13-27), without the two fields that only flow through. -/
structure Source where
  ra : ℝ
  dec : ℝ
  q : ℝ
  pa : ℝ
  fluxes : Nat → ℝ
  amps : Nat → ℝ
  dAmpDrh : Nat → ℝ
  dAmpDn : Nat → ℝ

/-- The astrometry of one source in one exposure (patch.cc:80-88). -/
structure Astrom where
  D : M22
  CW : M22
  crpix : ℝ × ℝ
  crval : ℝ × ℝ

/-- One pixel (patch.cc:31-34). -/
structure Pixel where
  x : ℝ
  y : ℝ
  data : ℝ
  ierr : ℝ

/-- What the kernel reads for one exposure of a band: calibration, astrometry of each source, the
PSF gaussians it uses for every source, the square radii and the pixels. -/
structure Exposure where
  G : ℝ
  astrom : Nat → Astrom
  psfs : List Psf
  rad2 : Nat → ℝ
  pixels : List Pixel

/-- `ImageGaussian` (common_kernel.cc:20-46). -/
structure ImGauss where
  amp : ℝ
  xcen : ℝ
  ycen : ℝ
  fxx : ℝ
  fyy : ℝ
  fxy : ℝ
  dA_dFlux : ℝ
  dx_dAlpha : ℝ
  dy_dAlpha : ℝ
  dx_dDelta : ℝ
  dy_dDelta : ℝ
  dA_dQ : ℝ
  dFxx_dQ : ℝ
  dFyy_dQ : ℝ
  dFxy_dQ : ℝ
  dA_dPA : ℝ
  dFxx_dPA : ℝ
  dFyy_dPA : ℝ
  dFxy_dPA : ℝ
  dA_dSersic : ℝ
  dA_drh : ℝ

/-- The on-sky parameters in the order of the response (proposal.cu:36). -/
inductive Param where
  | flux | ra | dec | q | pa | sersic | rh
deriving DecidableEq, Repr

/-! ## Preparing the gaussians -/

/-- `PixGaussian` (common_kernel.cc:151-168). -/
structure PixGauss where
  amp : ℝ
  xcen : ℝ
  ycen : ℝ
  covar : ℝ
  flux : ℝ
  G : ℝ
  da_dn : ℝ
  da_dr : ℝ
  CW : M22
  T : M22
  dT_dq : M22
  dT_dpa : M22

/-- The image covariance (common_kernel.cc:179-183). -/
def covariance (s : PixGauss) (p : Psf) : M22 :=
  (M22.smul s.covar (M22.AAt s.T)).add ⟨p.cxx, p.cxy, p.cxy, p.cyy⟩

/-- `GetGaussianAndJacobian` (common_kernel.cc:175-240). -/
noncomputable def getGaussianAndJacobian (s : PixGauss) (p : Psf) : ImGauss :=
  let covar := covariance s p
  let f := covar.inv
  let detF := f.det
  let tmp := s.G * p.amp * Real.sqrt detF * (1 / (2 * Real.pi))
  let amp := tmp * s.flux * s.amp
  let dSigma_dq := M22.smul s.covar (M22.symABt s.T s.dT_dq)
  let dSigma_dpa := M22.smul s.covar (M22.symABt s.T s.dT_dpa)
  let dF_dq := M22.smul (-1) (M22.ABA f dSigma_dq)
  let dF_dpa := M22.smul (-1) (M22.ABA f dSigma_dpa)
  { amp := amp
    xcen := s.xcen + p.xcen
    ycen := s.ycen + p.ycen
    fxx := f.v11
    fyy := f.v22
    fxy := f.v21
    dA_dFlux := tmp * s.amp
    dx_dAlpha := s.CW.v11
    dy_dAlpha := s.CW.v21
    dx_dDelta := s.CW.v12
    dy_dDelta := s.CW.v22
    dA_dQ := (1 / 2) * amp * (covar.mul dF_dq).trace
    dFxx_dQ := dF_dq.v11
    dFyy_dQ := dF_dq.v22
    dFxy_dQ := dF_dq.v21
    dA_dPA := (1 / 2) * amp * (covar.mul dF_dpa).trace
    dFxx_dPA := dF_dpa.v11
    dFyy_dPA := dF_dpa.v22
    dFxy_dPA := dF_dpa.v21
    dA_dSersic := tmp * s.flux * s.da_dn
    dA_drh := tmp * s.flux * s.da_dr }

/-- The source gaussian prepared by `ConvolveOneSource` (compute_gaussians_kernel.cc:45-113) and by
the GPU kernel (.cu:76-122) for the PSF gaussian `p`. -/
noncomputable def pixGauss (band : Nat) (e : Exposure) (a : Astrom) (s : Source) (p : Psf) :
    PixGauss :=
  let R := M22.rot s.pa
  let S := M22.scale s.q
  let smean := a.CW.mulVec (s.ra - a.crval.1, s.dec - a.crval.2)
  { amp := s.amps p.bin
    xcen := smean.1 + a.crpix.1
    ycen := smean.2 + a.crpix.2
    covar := e.rad2 p.bin
    flux := s.fluxes band
    G := e.G
    da_dn := s.dAmpDn p.bin
    da_dr := s.dAmpDrh p.bin
    CW := a.CW
    T := (a.D.mul R).mul S
    dT_dq := (a.D.mul R).mul (M22.scaleDeriv s.q)
    dT_dpa := (a.D.mul (M22.rotDeriv s.pa)).mul S }

/-- The image gaussian of one source and one PSF gaussian. -/
noncomputable def imGauss (band : Nat) (e : Exposure) (g : Nat) (s : Source) (p : Psf) : ImGauss :=
  getGaussianAndJacobian (pixGauss band e (e.astrom g) s p) p

/-- `ConvolveOneSource`: all image gaussians of one source
(compute_gaussians_kernel.cc:98-113). -/
noncomputable def sourceGauss (band : Nat) (e : Exposure) (g : Nat) (s : Source) : List ImGauss :=
  e.psfs.map fun p => imGauss band e g s p

/-- `CreateImageGaussians` (compute_gaussians_kernel.cc:197-215). -/
noncomputable def createImageGaussians (band : Nat) (e : Exposure) (n : Nat)
    (sources : Nat → Source) : List ImGauss :=
  ((List.range n).map fun g => sourceGauss band e g (sources g)).flatten

/-! ## Evaluating the gaussians -/

/-- `MAX_EXP_ARG` (kernel_limits.h:17). -/
def maxExpArg : ℝ := 36

/-- `exparg` of a gaussian at a pixel (common_kernel.cc:66-71). -/
def expArg (g : ImGauss) (x y : ℝ) : ℝ :=
  let dx := x - g.xcen
  let dy := y - g.ycen
  let vx := g.fxx * dx + g.fxy * dy
  let vy := g.fyy * dy + g.fxy * dx
  dx * vx + dy * vy

/-- `ComputeResidualImage` (common_kernel.cc:57-83). -/
noncomputable def computeResidual (x y data : ℝ) (gs : List ImGauss) : ℝ :=
  gs.foldl (fun residual g =>
    let dx := x - g.xcen
    let dy := y - g.ycen
    let vx := g.fxx * dx + g.fxy * dy
    let vy := g.fyy * dy + g.fxy * dx
    let exparg := dx * vx + dy * vy
    if exparg > maxExpArg then residual
    else
      let Gp := Real.exp (-(1 / 2) * exparg)
      let H := 1 + (vx * vx + vy * vy - g.fxx - g.fyy) / 24
      residual - g.amp * Gp * H) data

/-- One pass of the loop of `ComputeGaussianDerivative` (common_kernel.cc:102-141). -/
noncomputable def derivStep (x y rie2 : ℝ) (d : Param → ℝ) (g : ImGauss) : Param → ℝ :=
  let dx := x - g.xcen
  let dy := y - g.ycen
  let vx := g.fxx * dx + g.fxy * dy
  let vy := g.fyy * dy + g.fxy * dx
  let exparg := dx * vx + dy * vy
  if exparg > maxExpArg then d
  else
    let Gp := Real.exp (-(1 / 2) * exparg)
    let H := 1 + (vx * vx + vy * vy - g.fxx - g.fyy) * (1 / 24)
    let dC_dA0 := -2 * rie2 * Gp
    let c_h := dC_dA0 * g.amp
    let dC_dA := dC_dA0 * H
    let C := c_h * H
    let dC_dx := C * vx - c_h * (g.fxx * vx + g.fxy * vy) * (1 / 12)
    let dC_dy := C * vy - c_h * (g.fyy * vy + g.fxy * vx) * (1 / 12)
    let dC_dfx := -(1 / 2) * C * dx * dx - c_h * (1 - 2 * dx * vx) * (1 / 24)
    let dC_dfy := -(1 / 2) * C * dy * dy - c_h * (1 - 2 * dy * vy) * (1 / 24)
    let dC_dfxy := -1 * C * dx * dy + c_h * (dy * vx + dx * vy) * (1 / 12)
    fun
      | .flux => d .flux + g.dA_dFlux * dC_dA
      | .ra => d .ra + (g.dx_dAlpha * dC_dx + g.dy_dAlpha * dC_dy)
      | .dec => d .dec + (g.dx_dDelta * dC_dx + g.dy_dDelta * dC_dy)
      | .q => d .q + (g.dA_dQ * dC_dA + dC_dfx * g.dFxx_dQ + dC_dfxy * g.dFxy_dQ +
          dC_dfy * g.dFyy_dQ)
      | .pa => d .pa + (g.dA_dPA * dC_dA + dC_dfx * g.dFxx_dPA + dC_dfxy * g.dFxy_dPA +
          dC_dfy * g.dFyy_dPA)
      | .sersic => d .sersic + g.dA_dSersic * dC_dA
      | .rh => d .rh + g.dA_drh * dC_dA

/-- `ComputeGaussianDerivative` (common_kernel.cc:95-143) started from zero
(compute_gaussians_kernel.cc:298-300). -/
noncomputable def computeDerivative (x y rie2 : ℝ) (gs : List ImGauss) : Param → ℝ :=
  gs.foldl (derivStep x y rie2) fun _ => 0

/-! ## The likelihood -/

/-- The accumulators of `EvaluateProposal`. -/
structure Acc where
  chi2 : ℝ
  grad : Nat → Param → ℝ

/-- The weighted residual `residual*ierr*ierr` of a pixel (compute_gaussians_kernel.cc:279-294). -/
noncomputable def weighted (gs : List ImGauss) (p : Pixel) : ℝ :=
  computeResidual p.x p.y p.data gs * p.ierr * p.ierr

/-- What one pixel adds to `chi2` (compute_gaussians_kernel.cc:286-293). -/
noncomputable def pixelChi2 (gs : List ImGauss) (p : Pixel) : ℝ :=
  let residual := computeResidual p.x p.y p.data gs * p.ierr
  let data := p.data * p.ierr
  (residual - data) * (residual + data)

/-- The body of the pixel loop (compute_gaussians_kernel.cc:271-304): the residual, `chi2`, and the
derivatives of each source. -/
noncomputable def pixelStep (n : Nat) (gs : List ImGauss) (nGal : Nat) (acc : Acc) (p : Pixel) :
    Acc :=
  { chi2 := acc.chi2 + pixelChi2 gs p
    grad := fun gal prm =>
      if gal < n then
        acc.grad gal prm +
          computeDerivative p.x p.y (weighted gs p) ((gs.drop (gal * nGal)).take nGal) prm
      else acc.grad gal prm }

/-- The body of the exposure loop (compute_gaussians_kernel.cc:261-305). -/
noncomputable def exposureStep (band n : Nat) (sources : Nat → Source) (acc : Acc) (e : Exposure) :
    Acc :=
  let gs := createImageGaussians band e n sources
  e.pixels.foldl (pixelStep n gs e.psfs.length) acc

/-- `EvaluateProposal` (compute_gaussians_kernel.cc:227-315) for one band: all accumulators start at
zero and every exposure of the band is processed. -/
noncomputable def evaluate (band n : Nat) (exps : List Exposure) (sources : Nat → Source) : Acc :=
  exps.foldl (exposureStep band n sources) { chi2 := 0, grad := fun _ _ => 0 }

/-- The residual image written for an exposure (compute_gaussians_kernel.cc:279-283). -/
noncomputable def residualImage (band n : Nat) (e : Exposure) (sources : Nat → Source) : List ℝ :=
  let gs := createImageGaussians band e n sources
  e.pixels.map fun p => computeResidual p.x p.y p.data gs

end Forcepho.Kernel
